import Verif.Segment.Plain

/-
C13 and C21: segments and segment headers on the wire.
-/

namespace Verif.Segment

open GoLib Element Element.Spec Segment.Spec Verif.Token.Spec Token

theorem not_malformed_head {s : Str} (h : s.head? ≠ some '0') : ¬ LikeMalformedFloat s := by
  rintro ⟨ds, w, rfl, _⟩
  exact h rfl

/-! ## C13: segments -/

/-- C13: let `m` be a marshalled segment, `hb` the bytes of its header and `ps` those
of its elements (nothing for an absent one), each a sequence of wire values separated
by `:`.  Extracting the elements of `m` returns `hb :: ps` without the trailing empty
ones exactly if the last of these does not end in `+`; otherwise it never succeeds. -/
theorem C13_extract_iff {s : Seg} {hb m : Bytes} {ps out : List Bytes} (hh : s.header.marshal = .ok hb)
    (hps : s.elements.map DE.marshalOpt = ps.map .ok) (hm : s.marshal = .ok m)
    (hf : ∀ f ∈ hb :: ps, Field f) (hout : DropTrailing (hb :: ps) out) (hl : wireSize (hb :: ps) < 2 ^ 63)
    (res : List Bytes) :
    extractElements m = .ok res ↔ res = out ∧ ∀ p, out.getLast? = some p → p.getLast? ≠ some 43 := by
  have hne : hb ≠ [] := by rw [header_marshal_eq hh]; exact headerBytes_ne_nil _
  obtain ⟨init, p, k, hp, he⟩ := dropTrailing_exists (hb :: ps) ⟨hb, by simp, hne⟩
  have ho : out = init ++ [p] := (dropTrailing_iff hp he).1 hout
  subst ho
  have hpf : Field p := hf p (by simp [he])
  have hif : ∀ f ∈ init, Field f := fun f h => hf f (by simp [he, h])
  have hmm : m = pre 43 init ++ trimRight 43 p ++ [39] := by
    unfold Seg.marshal at hm
    rw [hh, marshalAll_ok.2 hps] at hm
    simp only [Outcome.bind, Outcome.map', Outcome.ok.injEq] at hm
    rw [← hm, he, trim_join (trimRight_field hpf hp)]
  have hl' : (pre 43 init ++ p).length < 2 ^ 63 := by
    have h1 : wireSize (hb :: ps) = wireSize init + wireSize [p] + wireSize (List.replicate k []) := by
      rw [he]; simp [wireSize]; omega
    have h2 : wireSize [p] = p.length + 1 := by simp [wireSize]
    rw [List.length_append, wireSize_pre]
    omega
  by_cases hcut : p.getLast? = some 43
  · obtain ⟨j, hj⟩ := trimRight_spec 43 p
    cases j with
    | zero =>
      simp only [List.replicate_zero, List.append_nil] at hj
      have := trimRight_getLast? 43 p
      rw [← hj] at this
      exact absurd hcut this
    | succ j =>
      constructor
      · intro h
        rw [hmm] at h
        exact absurd h (extract_segment_cut hif hpf hl' hj res)
      · rintro ⟨_, h⟩
        exact absurd hcut (h p (by simp))
  · rw [hmm, trimRight_of_last hcut, extract_segment hif hpf hp hl']
    simp only [Outcome.ok.injEq]
    constructor
    · rintro rfl
      exact ⟨rfl, fun q hq => by simp at hq; subst hq; exact hcut⟩
    · rintro ⟨rfl, _⟩; rfl

/-- C13: whatever the bytes of a segment's elements are, marshalling joins header and
elements by `+` without the trailing empty ones, provided the last of them does not
end in `+`. -/
theorem C13_bytes {s : Seg} {hb : Bytes} {ps init : List Bytes} {p : Bytes} (hh : s.header.marshal = .ok hb)
    (hps : s.elements.map DE.marshalOpt = ps.map .ok) (hout : DropTrailing (hb :: ps) (init ++ [p]))
    (hp : p.getLast? ≠ some 43) :
    s.marshal = .ok ((init.flatMap fun q => q ++ [43]) ++ p ++ [39]) := by
  obtain ⟨k, he, hne⟩ := hout
  have hne' : p ≠ [] := by intro h; simp [h] at hne
  unfold Seg.marshal
  rw [hh, marshalAll_ok.2 hps]
  simp only [Outcome.bind, Outcome.map', Outcome.ok.injEq]
  have := trim_join (c := 43) (out := init) (p := p) (k := k) (by rw [trimRight_of_last hp]; exact hne')
  rw [trimRight_of_last hp] at this
  rw [he, this]
  rfl

/-- The wire form of a segment with sound contents. -/
theorem segment_wire {s : Seg} {m : Bytes} (hm : s.marshal = .ok m) (hid : HarmlessId s.header.id)
    (hs : ∀ e, some e ∈ s.elements → Sound e) (hc : NotCut 43 s.elements) :
    ∃ hb ps init p, s.header.marshal = .ok hb ∧ s.elements.map DE.marshalOpt = ps.map .ok ∧
      DropTrailing (hb :: ps) (init ++ [p]) ∧ (∀ f ∈ init ++ [p], Spec.Field f) ∧ p ≠ [] ∧
      m = pre 43 init ++ p ++ [39] := by
  unfold Seg.marshal at hm
  cases hh : s.header.marshal with
  | err => rw [hh] at hm; simp at hm
  | panic => rw [hh] at hm; simp at hm
  | ok hb =>
    rw [hh] at hm
    simp only [Outcome.bind] at hm
    cases ha : DE.marshalAll s.elements with
    | err => rw [ha] at hm; simp at hm
    | panic => rw [ha] at hm; simp at hm
    | ok ps =>
      rw [ha] at hm
      simp only [Outcome.map', Outcome.ok.injEq] at hm
      have hbe := header_marshal_eq hh
      have hne : hb ≠ [] := by rw [hbe]; exact headerBytes_ne_nil _
      have hbf : Field hb := by rw [hbe]; exact header_field (header_latin1 hh) hid
      have hpf := fields_of_sound _ (soundAll_iff.2 hs) ps ha
      obtain ⟨init, p, k, hp, he⟩ := dropTrailing_exists (hb :: ps) ⟨hb, by simp, hne⟩
      have hd : DropTrailing (hb :: ps) (init ++ [p]) := (dropTrailing_iff hp he).2 rfl
      have hpl : p.getLast? ≠ some 43 := by
        cases init with
        | nil =>
          simp only [List.nil_append, List.singleton_append, List.cons.injEq] at he
          rw [← he.1, hbe]
          exact (headerBytes_last _).1
        | cons a init =>
          simp only [List.cons_append, List.cons.injEq] at he
          exact hc ps (init ++ [p]) p (marshalAll_ok.1 ha) ((dropTrailing_iff hp he.2).2 rfl) (by simp)
      have hmm : m = pre 43 init ++ p ++ [39] := by
        rw [← hm, he, trim_join (by rw [trimRight_of_last hpl]; exact hp), trimRight_of_last hpl]
      refine ⟨hb, ps, init, p, rfl, marshalAll_ok.1 ha, hd, ?_, hp, hmm⟩
      have hall : ∀ f ∈ hb :: ps, Field f := by
        intro f hf
        rcases List.mem_cons.1 hf with rfl | hf
        · exact hbf
        · exact hpf f hf
      intro f hf
      refine hall f ?_
      rw [he]
      exact List.mem_append_left _ hf

/-- C13: segments with sound contents.  All that remains to ask is that the last
present element does not end in `+`. -/
theorem C13_sound {s : Seg} {m : Bytes} (hm : s.marshal = .ok m) (hid : HarmlessId s.header.id)
    (hs : ∀ e, some e ∈ s.elements → Sound e) (hc : NotCut 43 s.elements) (hl : m.length < 2 ^ 63) :
    ∃ hb ps out, s.header.marshal = .ok hb ∧ s.elements.map DE.marshalOpt = ps.map .ok ∧
      DropTrailing (hb :: ps) out ∧ extractElements m = .ok out := by
  obtain ⟨hb, ps, init, p, h1, h2, h3, h4, h5, rfl⟩ := segment_wire hm hid hs hc
  refine ⟨hb, ps, init ++ [p], h1, h2, h3, ?_⟩
  refine extract_segment (fun f h => h4 f (by simp [h])) (h4 p (by simp)) h5 ?_
  simp only [List.length_append, List.length_cons, List.length_nil] at hl ⊢
  omega

/-- C13: in particular for segments none of whose texts or binary values end in `:`
or `+`. -/
theorem C13_plain {s : Seg} {m : Bytes} (hm : s.marshal = .ok m) (hid : HarmlessId s.header.id)
    (hs : ∀ e, some e ∈ s.elements → Plain e) (hl : m.length < 2 ^ 63) :
    ∃ hb ps out, s.header.marshal = .ok hb ∧ s.elements.map DE.marshalOpt = ps.map .ok ∧
      DropTrailing (hb :: ps) out ∧ extractElements m = .ok out :=
  C13_sound hm hid (fun e he => plain_sound e (hs e he))
    (notCut_of_last (Or.inr rfl) (plains_last _ (plainAll_iff.2 hs))) hl

/-- C13: a PIN ending in `+` as last element. The terminator is swallowed by the
escape character that is left over, and the segment cannot be read. -/
theorem C13_plus_cut :
    (newSegment 2 c!"HNSHA" 2 [some (.alnum c!"42" 14), none, some (.alnum c!"geheim+" 99)]).marshal =
      .ok b!"HNSHA:2:2+42++geheim?'" ∧
    extractElements b!"HNSHA:2:2+42++geheim?'" = .err := ⟨rfl, by decide⟩

/-- C13: binary data ending in `+` as last element loses its end. -/
theorem C13_binary_cut :
    (newSegment 2 c!"HNVSD" 1 [some (.binary b!"a+" 9)]).marshal = .ok b!"HNVSD:2:1+@2@a'" ∧
    extractElements b!"HNVSD:2:1+@2@a'" = .err := ⟨rfl, by decide⟩

/-- Non-vacuity: a segment with a group, an absent element in the middle, one at the
end, and special characters. -/
example : ∃ s : Seg, ∃ m, s.marshal = .ok m ∧ m = b!"HKSAL:3:5+1?+1?'::280++J'" ∧ HarmlessId s.header.id ∧
    (∀ e, some e ∈ s.elements → Plain e) ∧
    extractElements m = .ok [b!"HKSAL:3:5", b!"1?+1?'::280", b!"", b!"J"] := by
  refine ⟨newSegment 3 c!"HKSAL" 5 [some (.group 3 [some (.identification c!"1+1'" 30), none, some (.countryCode 280 3)]),
    none, some (.boolean true), none], _, rfl, rfl, ⟨by decide, ?_⟩, ?_, by decide⟩
  · exact not_malformed_head (by decide)
  · intro e he
    simp only [newSegment, List.mem_cons, Option.some.injEq, List.not_mem_nil, or_false] at he
    rcases he with rfl | h | rfl | h
    · simp only [Plain, PlainAll, PlainOpt, PlainText, and_true]
      refine ⟨by decide, ?_, by decide, by decide⟩
      exact not_malformed_head (by decide)
    · cases h
    · simp [Plain]
    · cases h

/-! ## C21: segment headers -/

theorem mem_enc_escape {s : Str} (hl : Latin1 s) {c : Char} (hc : c = '+' ∨ c = '\'') :
    UInt8.ofNat c.toNat ∈ enc (escape s) ↔ c ∈ s := by
  have hc' : c.toNat ≤ 255 := by rcases hc with rfl | rfl <;> decide
  induction s with
  | nil => simp [escape, enc]
  | cons d s ih =>
    have hd : d.toNat ≤ 255 := hl d (by simp)
    have hs : Latin1 s := fun x hx => hl x (by simp [hx])
    have ih' : UInt8.ofNat c.toNat ∈ enc (escape s) ↔ c ∈ s := ih hs
    rw [escape_cons, enc_append, List.mem_append, ih', List.mem_cons]
    have key : UInt8.ofNat c.toNat = UInt8.ofNat d.toNat ↔ c = d := by
      constructor
      · intro h
        have := (enc_eq_iff hd _).1 h.symm
        rw [UInt8.toNat_ofNat_of_lt' (by simpa using Nat.lt_succ_of_le hc')] at this
        exact Char.ext (UInt32.toNat_inj.1 this.symm)
      · rintro rfl; rfl
    have hq : UInt8.ofNat c.toNat ≠ 63 := by rcases hc with rfl | rfl <;> decide
    have hq' : UInt8.ofNat ('?' : Char).toNat = 63 := by decide
    split
    · simp only [enc, List.map_cons, List.map_nil, List.mem_cons, List.not_mem_nil, or_false]
      rw [key, hq']
      simp [hq]
    · simp only [enc, List.map_cons, List.map_nil, List.mem_cons, List.not_mem_nil, or_false]
      rw [key]

/-- C21: a marshalled header is `ID:position:version`, followed by `:reference`
exactly if there is one. -/
theorem C21_bytes {h : Header} {b : Bytes} (hm : h.marshal = .ok b) :
    ∃ i, marshalText h.id = .ok i ∧
      b = i ++ [58] ++ marshalNumber h.position ++ [58] ++ marshalNumber h.version ++
        (match h.ref with | none => [] | some r => [58] ++ marshalNumber r) := by
  have hl := header_latin1 hm
  refine ⟨enc (escape h.id), toISO_ok (escape_latin1.2 hl), ?_⟩
  rw [header_marshal_eq hm]
  unfold headerBytes marshalNumber
  cases h.ref <;> simp

/-- C21: reading back a marshalled header gives the same ID, position, version and
reference (an absent one stays absent) exactly if the ID contains neither `+` nor `'`. -/
theorem C21_roundtrip {h : Header} {b : Bytes} (hm : h.marshal = .ok b) (hid : HarmlessId h.id)
    (hp : IsInt h.position) (hv : IsInt h.version) (hr : ∀ r, h.ref = some r → IsInt r)
    (hl : b.length + 2 < 2 ^ 63) :
    unmarshalHeader b = .ok h ↔ '+' ∉ h.id ∧ '\'' ∉ h.id := by
  have hlat := header_latin1 hm
  have hb := header_marshal_eq hm
  have hparts := header_parts h hlat
  have hvals : ∀ p ∈ [enc (escape h.id), itoa h.position, itoa h.version, (h.ref.map itoa).getD []],
      p = [] ∨ Value p := by
    intro p hp
    simp only [List.mem_cons, List.not_mem_nil, or_false] at hp
    rcases hp with rfl | rfl | rfl | rfl
    · by_cases hn : h.id = []
      · left; rw [hn]; rfl
      · exact Or.inr ((text_value_iff hlat).2 ⟨hn, hid⟩)
    · exact Or.inr (itoa_value _)
    · exact Or.inr (itoa_value _)
    · cases h.ref with
      | none => exact Or.inl rfl
      | some r => exact Or.inr (itoa_value r)
  have hsz : wireSize [enc (escape h.id), itoa h.position, itoa h.version, (h.ref.map itoa).getD []] ≤ b.length + 2 := by
    rw [hb]
    unfold headerBytes
    cases h.ref <;> simp [wireSize] <;> omega
  have hno : ∀ n : Int, (43 : Byte) ∉ itoa n ∧ (39 : Byte) ∉ itoa n := by
    intro n
    constructor <;> intro hx <;> have := itoa_mem hx <;> revert this <;> simp [Digit]
  -- the parts without the trailing empty one
  have key : ∀ out, DropTrailing [enc (escape h.id), itoa h.position, itoa h.version, (h.ref.map itoa).getD []] out →
      (∀ p, out.getLast? = some p → p.getLast? ≠ some 58) → ∀ res,
      (Element.extractElements b = .ok res ↔ res = out ∧ '+' ∉ h.id ∧ '\'' ∉ h.id) := by
    intro out hd hlast res
    rw [C12_extract_iff hparts hm hvals ⟨itoa h.position, by simp, itoa_ne_nil _⟩ hd ?_ res]
    · have h1 := mem_enc_escape hlat (c := '+') (Or.inl rfl)
      have h2 := mem_enc_escape hlat (c := '\'') (Or.inr rfl)
      have e1 : UInt8.ofNat ('+' : Char).toNat = 43 := by decide
      have e2 : UInt8.ofNat ('\'' : Char).toNat = 39 := by decide
      rw [e1] at h1; rw [e2] at h2
      constructor
      · rintro ⟨rfl, hx, _⟩
        have := hx (enc (escape h.id)) (by simp)
        rw [h1, h2] at this
        exact ⟨rfl, this⟩
      · rintro ⟨rfl, hx⟩
        refine ⟨rfl, ?_, hlast⟩
        intro p hp
        simp only [List.mem_cons, List.not_mem_nil, or_false] at hp
        rcases hp with rfl | rfl | rfl | rfl
        · rw [h1, h2]; exact hx
        · exact hno _
        · exact hno _
        · cases h.ref with
          | none => simp
          | some r => exact hno r
    · omega
  have hti : unmarshalText (enc (escape h.id)) = h.id := by
    unfold unmarshalText
    rw [toUTF8_enc (escape_latin1.2 hlat), unescape_escape]
  have hnum : ∀ n, IsInt n → unmarshalNumber (itoa n) = .ok n := fun n hn => C09_number n hn
  cases hrr : h.ref with
  | none =>
    have hd : DropTrailing [enc (escape h.id), itoa h.position, itoa h.version, (h.ref.map itoa).getD []]
        [enc (escape h.id), itoa h.position, itoa h.version] := by
      refine ⟨1, by simp [hrr], ?_⟩
      simp [itoa_ne_nil]
    have hk := key _ hd (by intro p hp; simp at hp; subst hp; exact itoa_not_colon _)
    constructor
    · intro hu
      unfold unmarshalHeader at hu
      cases hx : Element.extractElements b with
      | err => rw [hx] at hu; simp at hu
      | panic => rw [hx] at hu; simp at hu
      | ok res => exact ((hk res).1 hx).2
    · intro hs
      unfold unmarshalHeader
      rw [(hk _).2 ⟨rfl, hs⟩]
      simp only [Outcome.bind, hnum _ hp, hnum _ hv, hti, unmarshalRef]
      rw [← hrr]
  | some r =>
    have hd : DropTrailing [enc (escape h.id), itoa h.position, itoa h.version, (h.ref.map itoa).getD []]
        [enc (escape h.id), itoa h.position, itoa h.version, itoa r] := by
      refine ⟨0, by simp [hrr], ?_⟩
      simp [itoa_ne_nil]
    have hk := key _ hd (by intro p hp; simp at hp; subst hp; exact itoa_not_colon _)
    constructor
    · intro hu
      unfold unmarshalHeader at hu
      cases hx : Element.extractElements b with
      | err => rw [hx] at hu; simp at hu
      | panic => rw [hx] at hu; simp at hu
      | ok res => exact ((hk res).1 hx).2
    · intro hs
      unfold unmarshalHeader
      rw [(hk _).2 ⟨rfl, hs⟩]
      simp only [Outcome.bind, hnum _ hp, hnum _ hv, hti, unmarshalRef, if_neg (itoa_ne_nil r),
        hnum r (hr r hrr), Outcome.map']
      rw [← hrr]

/-- C21: what is read as a header.  At least three fields are needed; position,
version and a non-empty fourth field must be numbers; further fields are ignored. -/
theorem C21_accepts {b : Bytes} {h : Header} (hu : unmarshalHeader b = .ok h) :
    ∃ i p v rest, Element.extractElements b = .ok (i :: p :: v :: rest) ∧ h.id = unmarshalText i ∧
      Decimal p h.position ∧ IsInt h.position ∧ Decimal v h.version ∧ IsInt h.version ∧
      (match rest with
       | [] => h.ref = none
       | r :: _ => (r = [] ∧ h.ref = none) ∨ ∃ n, Decimal r n ∧ IsInt n ∧ h.ref = some n) := by
  unfold unmarshalHeader at hu
  cases hx : Element.extractElements b with
  | err => rw [hx] at hu; simp at hu
  | panic => rw [hx] at hu; simp at hu
  | ok es =>
    rw [hx] at hu
    match es, hu with
    | i :: p :: v :: rest, hu =>
      simp only [Outcome.bind] at hu
      cases hp : unmarshalNumber p with
      | err => rw [hp] at hu; simp at hu
      | panic => rw [hp] at hu; simp at hu
      | ok pos =>
        rw [hp] at hu
        cases hv : unmarshalNumber v with
        | err => rw [hv] at hu; simp at hu
        | panic => rw [hv] at hu; simp at hu
        | ok ver =>
          rw [hv] at hu
          have h1 := (C09_accepts p pos).1 hp
          have h2 := (C09_accepts v ver).1 hv
          cases rest with
          | nil =>
            simp only [unmarshalRef, Outcome.ok.injEq] at hu
            subst hu
            exact ⟨i, p, v, [], rfl, rfl, h1.1, h1.2, h2.1, h2.2, rfl⟩
          | cons r rest =>
            simp only [unmarshalRef] at hu
            by_cases hr : r = []
            · rw [if_pos hr] at hu
              simp only [Outcome.ok.injEq] at hu
              subst hu
              exact ⟨i, p, v, r :: rest, rfl, rfl, h1.1, h1.2, h2.1, h2.2, Or.inl ⟨hr, rfl⟩⟩
            · rw [if_neg hr] at hu
              cases hn : unmarshalNumber r with
              | err => rw [hn] at hu; simp at hu
              | panic => rw [hn] at hu; simp at hu
              | ok n =>
                rw [hn] at hu
                simp only [Outcome.map', Outcome.ok.injEq] at hu
                subst hu
                have h3 := (C09_accepts r n).1 hn
                exact ⟨i, p, v, r :: rest, rfl, rfl, h1.1, h1.2, h2.1, h2.2, Or.inr ⟨n, h3.1, h3.2, rfl⟩⟩

/-- C21: an absent reference and reference 0 differ on the wire and after reading. -/
example : (newHeader c!"HIRMS" 3 2).marshal = .ok b!"HIRMS:3:2" ∧
    (newReferencingHeader c!"HIRMS" 3 2 0).marshal = .ok b!"HIRMS:3:2:0" ∧
    unmarshalHeader b!"HIRMS:3:2" = .ok ⟨c!"HIRMS", 3, 2, none⟩ ∧
    unmarshalHeader b!"HIRMS:3:2:0" = .ok ⟨c!"HIRMS", 3, 2, some 0⟩ ∧
    unmarshalHeader b!"HIRMS:3" = .err := by decide

end Verif.Segment

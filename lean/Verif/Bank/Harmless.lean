import Verif.Bank.LogLemmas

/-
The own segments are read without a panic.
-/

namespace Verif.Bank

open GoLib Element Segment Message Token

/-! ## Segments the reader passes without panicking -/

/-- Reading a segment does not panic and adds no acknowledgement. -/
def Harmless (b : Bytes) : Prop :=
  ∀ m, readSegment decoders m b ≠ .panic ∧ ∀ m', readSegment decoders m b = .ok m' → m' c!"HIRMS" = m c!"HIRMS"

theorem readSegments_harmless {ss : List Bytes} (h : ∀ s ∈ ss, Harmless s) : ∀ m,
    readSegments decoders ss m ≠ .panic ∧ ∀ m', readSegments decoders ss m = .ok m' → m' c!"HIRMS" = m c!"HIRMS" := by
  induction ss with
  | nil => intro m; exact ⟨by simp [readSegments], fun m' hm => by simp only [readSegments, Outcome.ok.injEq] at hm; rw [hm]⟩
  | cons s ss ih =>
    intro m
    have ih := ih fun x hx => h x (by simp [hx])
    obtain ⟨h1, h2⟩ := h s (by simp) m
    rw [readSegments]
    refine ⟨bind_safe h1 fun a _ => (ih a).1, fun m' hm => ?_⟩
    obtain ⟨a, h3, h4⟩ := Dialog.bind_ok hm
    rw [(ih a).2 m' h4, h2 a h3]

/-- What an own segment looks like. -/
theorem seg_shape {s : Seg} {b : Bytes} (hw : WordySeg s) (h : s.marshal = .ok b) :
    ∃ y, b = headerBytes s.header ++ y ++ [39] ∧ (y = [] ∨ ∃ z, y = 43 :: z) ∧ NoBare harsh false (headerBytes s.header ++ y) ∧
      Element.Spec.Latin1 s.header.id := by
  obtain ⟨t, h1, ⟨y, rfl⟩, h3⟩ := noBare_seg hw h
  obtain ⟨ps, _, h5, _, h6, h7⟩ := seg_cells hw h
  refine ⟨y, h1, ?_, h3, h6⟩
  rw [h1] at h7
  have h7 := (List.append_inj' h7 rfl).1
  cases y with
  | nil => exact Or.inl rfl
  | cons c z =>
    right
    have hp : headerBytes s.header ++ c :: z <+: join 43 (headerBytes s.header :: ps) := h7 ▸ trimRight_isPrefix _ _
    cases ps with
    | nil =>
      have := hp.length_le
      simp [join] at this
    | cons p ps =>
      have e : join 43 (headerBytes s.header :: p :: ps) = headerBytes s.header ++ 43 :: join 43 (p :: ps) := rfl
      rw [e, List.prefix_append_right_inj] at hp
      exact ⟨z, by rw [(List.cons_prefix_cons.1 hp).1]⟩

/-- A segment named in the header, with a decoder that does not panic. -/
theorem harmless_of {h : Header} {y : Bytes} (hid : Element.Spec.Latin1 h.id) (hy : y = [] ∨ ∃ z, y = 43 :: z)
    (ht : Message.Spec.SegmentText (headerBytes h ++ y ++ [39])) (hl : (headerBytes h ++ y ++ [39]).length < 2 ^ 63)
    (hn : NoBare (· == 64) false (headerBytes h ++ y)) (hne : h.id ≠ c!"HIRMS")
    (hd : ∀ g f, unmarshalHeader (headerBytes h) = .ok g → decoderFor decoders h.id g.version = some f →
      f (headerBytes h ++ y ++ [39]) ≠ .panic) : Harmless (headerBytes h ++ y ++ [39]) := by
  obtain ⟨h1, h2⟩ := header_id hid hy ht hl hn
  intro m
  unfold readSegment
  refine ⟨bind_safe h1 fun g hg => ?_, fun m' hm => ?_⟩
  · obtain ⟨h3, h4⟩ := h2 g hg
    cases hf : decoderFor decoders g.id g.version with
    | none => simp
    | some f => exact map_safe (hd g f h4 (by rw [← h3, hf]))
  · obtain ⟨g, hg, hm⟩ := Dialog.bind_ok hm
    obtain ⟨h3, h4⟩ := h2 g hg
    cases hf : decoderFor decoders g.id g.version with
    | none => rw [hf] at hm; simp only [Outcome.ok.injEq] at hm; rw [hm]
    | some f =>
      rw [hf] at hm
      obtain ⟨d, _, rfl⟩ := Dialog.map_ok hm
      rw [h3]
      exact if_neg (Ne.symm hne)

/-- The decoders by name. -/
theorem decoderFor_known {id : Str} {v : Int} {f : Bytes → Outcome (Decoded BankSeg)} (h1 : id ≠ c!"HIRMG") (h2 : id ≠ c!"HIRMS")
    (h : decoderFor decoders id v = some f) : ∃ g, (id, v, g) ∈ known ∧ f = fun b => (g b).map' .other := by
  unfold decoderFor at h
  rw [if_neg h1, if_neg h2] at h
  unfold decoders at h
  simp only [Option.map_map, Option.map_eq_some_iff] at h
  obtain ⟨e, h3, h4⟩ := h
  have hm := List.mem_of_find?_eq_some h3
  have hp := List.find?_some h3
  simp only [Bool.and_eq_true, beq_iff_eq] at hp
  obtain ⟨a, c, g⟩ := e
  simp only at hp
  obtain ⟨rfl, rfl⟩ := hp
  exact ⟨g, hm, h4.symm⟩

/-- No decoder is registered for the segments a client sends. -/
theorem decoderFor_job {id : Str} (h : c!"HK" <+: id) (v : Int) : decoderFor decoders id v = none := by
  cases hf : decoderFor decoders id v with
  | none => rfl
  | some f =>
    exfalso
    have key : ∀ i ∈ c!"HIRMG" :: c!"HIRMS" :: known.map (·.1), ¬ c!"HK" <+: i := by decide +kernel
    obtain ⟨g, hg, _⟩ := decoderFor_known (by rintro rfl; exact key _ (by simp) h) (by rintro rfl; exact key _ (by simp) h) hf
    exact key id (by simp only [List.mem_cons, List.mem_map]; exact Or.inr (Or.inr ⟨_, hg, rfl⟩)) h

theorem harmless_job {h : Header} {y : Bytes} (hj : c!"HK" <+: h.id) (hid : Element.Spec.Latin1 h.id) (hy : y = [] ∨ ∃ z, y = 43 :: z)
    (ht : Message.Spec.SegmentText (headerBytes h ++ y ++ [39])) (hl : (headerBytes h ++ y ++ [39]).length < 2 ^ 63)
    (hn : NoBare (· == 64) false (headerBytes h ++ y)) : Harmless (headerBytes h ++ y ++ [39]) :=
  harmless_of hid hy ht hl hn (by intro he; rw [he] at hj; revert hj; decide) fun g f _ hf => by
    rw [decoderFor_job hj] at hf; cases hf

/-! ## The segments around the contents -/


theorem wordy_group {n : Nat} {es : List (Option DE)} (h : ∀ e ∈ es.filterMap id, Wordy e) : Wordy (.group n es) :=
  .group fun e he => h e (List.mem_filterMap.2 ⟨_, he, rfl⟩)

theorem wordySeg_of {s : Seg} (h : ∀ e ∈ s.elements.filterMap id, Wordy e) : WordySeg s :=
  fun e he => h e (List.mem_filterMap.2 ⟨_, he, rfl⟩)

theorem wordy_keyName (k : KeyName) : Wordy (keyNameDE k) := by
  have h : Wordy (bankIdentification k.country k.bankId) := wordy_group (by simp [Wordy.countryCode, Wordy.alnum])
  exact wordy_group (by simp [h, Wordy.identification, Wordy.alnum, Wordy.number])

theorem wordy_securityId (c : Str) : Wordy (securityId c) := wordy_group (by simp [Wordy.identification, Wordy.alnum])

theorem wordy_securityDate (t : Time.Civil) : Wordy (securityDate t) := wordy_group (by simp [Wordy.date, Wordy.time, Wordy.alnum])

theorem wordy_hash : Wordy hashAlgorithm := wordy_group (by simp [Wordy.alnum])

theorem wordy_signatureAlgorithm : Wordy signatureAlgorithm := wordy_group (by simp [Wordy.alnum])

theorem wordy_profile (n : Int) : Wordy (securityProfile n) := wordy_group (by simp [Wordy.alnum, Wordy.number])

theorem wordy_signatureHeader (v : Version) (fn ref id : Str) (k : KeyName) (t : Time.Civil) (p : Int) :
    WordySeg ((signatureHeader v fn ref id k t).setPosition p) := by
  apply wordySeg_of
  cases v <;>
  simp [signatureHeader, newSegment, Seg.setPosition, Wordy.alnum, Wordy.number, Wordy.code, wordy_keyName, wordy_securityId,
    wordy_securityDate, wordy_hash, wordy_signatureAlgorithm, wordy_profile]

theorem wordy_signatureEnd (v : Version) (ref pin : Str) (p : Int) : WordySeg ((signatureEnd v ref pin).setPosition p) := by
  have : ∀ a b, Wordy (pinTanDE a b pin []) := fun a b => wordy_group (by simp [Wordy.alnum])
  apply wordySeg_of
  cases v <;> simp [signatureEnd, newSegment, Seg.setPosition, Wordy.alnum, this]

theorem wordy_msgEnd (e : MsgEnd) : WordySeg e.seg := by
  apply wordySeg_of
  simp [MsgEnd.seg, newSegment, Wordy.number]

theorem opaque_safe {t : Bytes} (h : Message.Spec.SegmentText (t ++ [39])) (hl : (t ++ [39]).length < 2 ^ 63)
    (hn : NoBare (· == 64) false t) {fs : List (Nat × (Bytes → Outcome Unit))} (hf : ∀ x ∈ fs, Safe x.2) {last : Nat} {f : Bytes → Outcome Unit}
    (hlast : ∀ es, (∀ q ∈ es, Calm q) → (cells 43 false t [] = es ∨ cells 43 false t [] = es ++ [[]]) → lastField es last f ≠ .panic) :
    opaqueSegment (t ++ [39]) fs last f ≠ .panic :=
  generated_safe h hl hn fun es _ hq hc => bind_safe (checkFields_safe hq hf) fun _ _ => map_safe (hlast es hq hc)

theorem pre_eq_join {d : Byte} (l : List Bytes) (h : l ≠ []) : pre d l = join d l ++ [d] := by
  rw [← List.dropLast_append_getLast h, join_snoc]
  simp [pre]

/-- The signature header is read without a panic: there is no certificate. -/
theorem harmless_signatureHeader {v : Version} {fn ref id : Str} {k : KeyName} {now : Time.Civil} {b : Bytes}
    (h : ((signatureHeader v fn ref id k now).setPosition 2).marshal = .ok b) (ht : Message.Spec.SegmentText b)
    (hl : b.length < 2 ^ 63) : Harmless b := by
  have hw := wordy_signatureHeader v fn ref id k now 2
  obtain ⟨y, rfl, hy, hn, hid⟩ := seg_shape hw h
  have hn64 : NoBare (· == 64) false (headerBytes ((signatureHeader v fn ref id k now).setPosition 2).header ++ y) :=
    hn.mono (by intro c hc; simp only [beq_iff_eq] at hc; subst hc; rfl)
  have hcount : (cells 43 false (headerBytes ((signatureHeader v fn ref id k now).setPosition 2).header ++ y) []).length ≤
      match v with | .hbci220 => 11 | .fints300 => 12 := by
    obtain ⟨ps, g1, g2, g3, g4, g5⟩ := seg_cells hw h
    have g5 := (List.append_inj' g5 rfl).1
    rw [g5]
    obtain ⟨qs, rfl⟩ : ∃ qs, ps = qs ++ [[]] := by
      rw [marshalAll_ok] at g3
      have : ∃ A, ((signatureHeader v fn ref id k now).setPosition 2).elements = A ++ [none] := by
        cases v
        · exact ⟨((signatureHeader .hbci220 fn ref id k now).setPosition 2).elements.take 10, rfl⟩
        · exact ⟨((signatureHeader .fints300 fn ref id k now).setPosition 2).elements.take 11, rfl⟩
      obtain ⟨A, hA⟩ := this
      rw [hA, List.map_append] at g3
      obtain ⟨qs, rs, rfl, g6, g7⟩ := List.append_eq_map_iff.1 g3
      rcases rs with _ | ⟨r, _ | ⟨r', rs⟩⟩ <;> simp [DE.marshalOpt] at g7
      exact ⟨qs, by rw [← g7]⟩
    set hb := headerBytes ((signatureHeader v fn ref id k now).setPosition 2).header with hhb
    have e : trimRight 43 (join 43 (hb :: (qs ++ [[]]))) <+: join 43 (hb :: qs) := by
      have : join 43 (hb :: (qs ++ [[]])) = join 43 (hb :: qs) ++ [43] := by
        have h1 := join_snoc 43 (hb :: qs) []
        rw [List.cons_append] at h1
        rw [h1, List.append_nil, pre_eq_join _ (by simp)]
      rw [this, trimRight_append_single]
      exact trimRight_isPrefix _ _
    have h1 := cells_length_mono (d := 43) (e := false) e []
    have h2 := cells_join_length (d := 43) (by decide) (hb :: qs) (by simp) (by
      intro a ha
      have m : ∀ {b : Bytes}, NoBare coarse false b → NoBare (· == 43) false b := fun h =>
        h.mono (by intro c hc; simp only [beq_iff_eq] at hc; subst hc; rfl)
      rcases List.mem_cons.1 ha with rfl | ha
      · exact m (even_headerBytes g4).1
      · exact m (g2 a (by simp [ha]))) []
    have h3 : qs.length + 1 = ((signatureHeader v fn ref id k now).setPosition 2).elements.length := by rw [← g1]; simp
    cases v
    · simp [signatureHeader, newSegment, Seg.setPosition] at h3
      simp only [List.length_cons] at h2
      show _ ≤ 11
      omega
    · simp [signatureHeader, newSegment, Seg.setPosition] at h3
      simp only [List.length_cons] at h2
      show _ ≤ 12
      omega
  have hshort : ∀ {n : Nat} {es : List Bytes}, (cells 43 false (headerBytes ((signatureHeader v fn ref id k now).setPosition 2).header ++ y) []).length ≤ n →
      (cells 43 false (headerBytes ((signatureHeader v fn ref id k now).setPosition 2).header ++ y) [] = es ∨
        cells 43 false (headerBytes ((signatureHeader v fn ref id k now).setPosition 2).header ++ y) [] = es ++ [[]]) → es.length ≤ n := by
    intro n es h1 h2
    rcases h2 with h2 | h2 <;> rw [h2] at h1
    · exact h1
    · simp at h1; omega
  have hid' : ((signatureHeader v fn ref id k now).setPosition 2).header.id = c!"HNSHK" := by cases v <;> rfl
  refine harmless_of hid hy ht hl hn64 (by rw [hid']; decide) ?_
  intro g f hg hf
  rw [hid'] at hf
  obtain ⟨u, hu, rfl⟩ := decoderFor_known (by decide) (by decide) hf
  apply map_safe
  cases v
  · have hg' : g = ⟨c!"HNSHK", 2, 3, none⟩ := by
      have : unmarshalHeader (headerBytes ⟨c!"HNSHK", 2, 3, none⟩) = .ok ⟨c!"HNSHK", 2, 3, none⟩ := by decide +kernel
      have := this.symm.trans hg
      simpa using this.symm
    subst hg'
    have hu : u = fun b => (unmarshalSignatureV3 b).map' .unread := by simpa [known] using hu
    rw [hu]
    apply map_safe
    refine opaque_safe ht hl hn64 (by simp [safe_anyText, safe_securityId, safe_check safe_number, safe_securityDate, safe_hash, safe_signatureAlgorithm, safe_keyName]) ?_
    intro es _ he
    rw [lastField_short (hshort hcount he)]
    simp
  · have hg' : g = ⟨c!"HNSHK", 2, 4, none⟩ := by
      have : unmarshalHeader (headerBytes ⟨c!"HNSHK", 2, 4, none⟩) = .ok ⟨c!"HNSHK", 2, 4, none⟩ := by decide +kernel
      have := this.symm.trans hg
      simpa using this.symm
    subst hg'
    have hu : u = fun b => (unmarshalSignatureV4 b).map' .unread := by simpa [known] using hu
    rw [hu]
    apply map_safe
    refine opaque_safe ht hl hn64 (by simp [safe_anyText, safe_check (safe_profile none), safe_securityId, safe_check safe_number, safe_securityDate, safe_hash, safe_signatureAlgorithm, safe_keyName]) ?_
    intro es _ he
    rw [lastField_short (hshort hcount he)]
    simp

theorem pinBytes_bare {pin : Str} (h : Element.Spec.Latin1 pin) : NoBare loud false (Dialog.pinBytes pin) := by
  unfold Dialog.pinBytes
  refine (noBare_enc h).1.prefix ?_
  split
  · exact (List.dropLast_prefix _).map _
  · exact List.prefix_rfl

theorem pinBytes_ne_nil {pin : Str} (h : pin ≠ []) : Dialog.pinBytes pin ≠ [] := by
  unfold Dialog.pinBytes
  split
  · rename_i hl
    obtain ⟨r, c, rfl⟩ : ∃ r c, pin = r ++ [c] := ⟨_, _, (List.dropLast_append_getLast h).symm⟩
    simp only [List.getLast?_append, List.getLast?_singleton, Option.some_or, Option.some.injEq] at hl
    rw [Dialog.escape_append]
    rcases hl with rfl | rfl
    · have : escape [':'] = ['?'] ++ [':'] := rfl
      rw [this, ← List.append_assoc, List.dropLast_concat]
      simp [enc]
    · have : escape ['+'] = ['?'] ++ ['+'] := rfl
      rw [this, ← List.append_assoc, List.dropLast_concat]
      simp [enc]
  · exact escape_ne_nil h

/-- The signature end is read without a panic: the PIN is one part only. -/
theorem harmless_signatureEnd {v : Version} {ref pin : Str} {k : Int} {b : Bytes} (hp : pin ≠ [])
    (h : ((signatureEnd v ref pin).setPosition k).marshal = .ok b) (ht : Message.Spec.SegmentText b)
    (hl : b.length < 2 ^ 63) : Harmless b := by
  have hb := Dialog.signatureEnd_bytes hp h
  have hw := (Dialog.seg_ok_iff _).1 ⟨b, h⟩
  rw [Dialog.writable_setPosition, Dialog.signatureEnd_writable] at hw
  obtain ⟨y, hy, hy1, hn, hid⟩ := seg_shape (wordy_signatureEnd v ref pin k) h
  have hn64 : NoBare (· == 64) false (headerBytes ((signatureEnd v ref pin).setPosition k).header ++ y) :=
    hn.mono (by intro c hc; simp only [beq_iff_eq] at hc; subst hc; rfl)
  have hid' : ((signatureEnd v ref pin).setPosition k).header.id = c!"HNSHA" := by cases v <;> rfl
  have hhead : headerBytes ((signatureEnd v ref pin).setPosition k).header = b!"HNSHA:" ++ itoa k ++ b!":" ++ itoa (Dialog.endVersion v) := by
    have he : enc (escape c!"HNSHA") = b!"HNSHA" := by decide
    cases v <;> simp [signatureEnd, newSegment, Seg.setPosition, Header.setPosition, newHeader, headerBytes, he, Dialog.endVersion]
  have hyv : y = 43 :: (enc (escape ref) ++ 43 :: 43 :: Dialog.pinBytes pin) := by
    rw [hy, hhead] at hb
    simp only [List.append_assoc, List.append_cancel_left_eq] at hb
    have hb : y ++ [39] = 43 :: (enc (escape ref) ++ 43 :: 43 :: Dialog.pinBytes pin) ++ [39] := by simpa using hb
    exact (List.append_inj' hb rfl).1
  have hc : cells 43 false (headerBytes ((signatureEnd v ref pin).setPosition k).header ++ y) [] =
      [headerBytes ((signatureEnd v ref pin).setPosition k).header, enc (escape ref), [], Dialog.pinBytes pin] := by
    have lc : ∀ {b : Bytes}, Even loud b → Even (· == 43) b := fun h =>
      h.mono (by intro c hc; simp only [beq_iff_eq] at hc; subst hc; rfl)
    rw [hyv, cells_even ((even_headerBytes hid).mono (by intro c hc; simp only [beq_iff_eq] at hc; subst hc; rfl)),
      cells_even (lc (noBare_enc hw.1))]
    have e : (43 : Byte) :: Dialog.pinBytes pin = [] ++ 43 :: Dialog.pinBytes pin := rfl
    rw [e, cells_even .nil, cells_last ((pinBytes_bare hw.2).mono (by intro c hc; simp only [beq_iff_eq] at hc; subst hc; rfl))]
    rfl
  have hlast : ∀ {f : Bytes → Outcome Unit}, (∀ q, Calm q → NoBare (· == 58) false q → f q ≠ .panic) → ∀ es : List Bytes, (∀ q ∈ es, Calm q) →
      (cells 43 false (headerBytes ((signatureEnd v ref pin).setPosition k).header ++ y) [] = es ∨
        cells 43 false (headerBytes ((signatureEnd v ref pin).setPosition k).header ++ y) [] = es ++ [[]]) → lastField es 3 f ≠ .panic := by
    intro f hf es hq he
    rw [hc] at he
    have : es = [headerBytes ((signatureEnd v ref pin).setPosition k).header, enc (escape ref), [], Dialog.pinBytes pin] := by
      rcases he with he | he
      · exact he.symm
      · exfalso
        have := congrArg List.getLast? he
        simp at this
        exact pinBytes_ne_nil hp this
    subst this
    unfold lastField
    simp only [List.getElem?_cons_succ, List.getElem?_cons_zero, List.drop_succ_cons, List.drop_zero]
    split
    · simp
    · exact map_safe (hf (Dialog.pinBytes pin) (hq _ (by simp)) ((pinBytes_bare hw.2).mono (by intro c hc; simp only [beq_iff_eq] at hc; subst hc; rfl)))
  have hone : ∀ q ps, Calm q → NoBare (· == 58) false q → Element.extractElements q = .ok ps → ps.length < 2 := by
    intro q ps hq hn he
    rcases hq.parts with h1 | ⟨ps', h1, _, h2, _⟩
    · rw [he] at h1; cases h1
    · rw [he] at h1
      cases h1
      rw [cells_last hn] at h2
      rcases h2 with h2 | h2 <;> have := congrArg List.length h2 <;>
        simp only [List.length_append, List.length_cons, List.length_nil] at this <;> omega
  subst hy
  refine harmless_of hid hy1 ht hl hn64 (by rw [hid']; decide) ?_
  intro g f hg hf
  rw [hid'] at hf
  obtain ⟨u, hu, rfl⟩ := decoderFor_known (by decide) (by decide) hf
  apply map_safe
  have hu : u = (fun b => (unmarshalSignatureEndV1 b).map' .unread) ∨ u = fun b => (unmarshalSignatureEndV2 b).map' .unread := by
    simp [known] at hu
    rcases hu with ⟨_, hu⟩ | ⟨_, hu⟩
    · exact Or.inl hu
    · exact Or.inr hu
  rcases hu with rfl | rfl
  · apply map_safe
    refine opaque_safe ht hl hn64 (by simp [safe_anyText, safe_check safe_binary]) (hlast fun q hq hn => ?_)
    exact safe_group (by simp [safe_anyText]) q hq
  · apply map_safe
    refine opaque_safe ht hl hn64 (by simp [safe_anyText, safe_check safe_binary]) (hlast fun q hq hn => ?_)
    unfold checkCustomSignature
    rcases hq.parts with h1 | ⟨ps, h1, _⟩
    · simp [h1]
    · rw [h1]
      simp only [Outcome.bind]
      rw [if_pos (hone q ps hq hn h1)]
      simp

/-- The message end. -/
theorem harmless_msgEnd {e : MsgEnd} {b : Bytes} (h : e.seg.marshal = .ok b) (ht : Message.Spec.SegmentText b)
    (hl : b.length < 2 ^ 63) : Harmless b := by
  obtain ⟨y, rfl, hy, hn, hid⟩ := seg_shape (wordy_msgEnd e) h
  have hn64 : NoBare (· == 64) false (headerBytes e.seg.header ++ y) :=
    hn.mono (by intro c hc; simp only [beq_iff_eq] at hc; subst hc; rfl)
  have hid' : e.seg.header.id = c!"HNHBS" := rfl
  refine harmless_of hid hy ht hl hn64 (by rw [hid']; decide) ?_
  intro g f hg hf
  rw [hid'] at hf
  obtain ⟨u, hu, rfl⟩ := decoderFor_known (by decide) (by decide) hf
  apply map_safe
  have hu : g.version = 1 ∧ u = fun b => (unmarshalMsgEnd b).map' .unread := by
    simpa [known, MsgEnd.seg, newSegment, newHeader] using hu
  rw [hu.2]
  apply map_safe
  exact opaque_safe ht hl hn64 (by simp) fun es _ _ => lastField_safe es 1 fun b => map_safe (unmarshalNumber_no_panic b)

/-- The bytes of a message header without reference. -/
theorem msgHeader_bytes {h : MsgHeader} (hr : h.ref = none) {b : Bytes} (hm : h.seg.marshal = .ok b) :
    Element.Spec.Latin1 h.dialogId ∧ b = headerBytes h.seg.header ++ (43 :: zeroPad 12 h.size ++ 43 :: itoa h.hbciVersion ++
      43 :: enc (escape h.dialogId) ++ 43 :: itoa h.number) ++ [39] := by
  unfold Seg.marshal at hm
  obtain ⟨hb, h1, h2⟩ := Dialog.bind_ok hm
  obtain ⟨ps, h3, rfl⟩ := Dialog.map_ok h2
  rw [header_marshal_eq h1]
  simp only [MsgHeader.seg, newSegment, hr, Option.map_none, DE.marshalAll, DE.marshalOpt, DE.marshal] at h3
  cases ht : marshalText h.dialogId with
  | ok d =>
    obtain ⟨h4, rfl⟩ := marshalText_latin1 ht
    refine ⟨h4, ?_⟩
    simp only [ht, Outcome.bind, Outcome.map', Outcome.ok.injEq, marshalDigit, marshalNumber] at h3
    rw [← h3]
    have e : headerBytes h.seg.header :: [zeroPad 12 h.size, itoa h.hbciVersion, enc (escape h.dialogId), itoa h.number, []] =
        (headerBytes h.seg.header :: [zeroPad 12 h.size, itoa h.hbciVersion, enc (escape h.dialogId)]) ++ [itoa h.number] ++ List.replicate 1 [] := by simp
    rw [e, join_trailing]
    have hl : ∀ x : Bytes, trimRight 43 (x ++ itoa h.number) = x ++ itoa h.number := by
      intro x
      apply trimRight_of_last
      rw [List.getLast?_append_of_ne_nil _ (itoa_ne_nil _)]
      have := (headerBytes_last ⟨[], 0, h.number, none⟩).1
      simp only [headerBytes, List.append_nil] at this
      have e : enc (escape []) ++ 58 :: itoa 0 ++ 58 :: itoa h.number = (enc (escape []) ++ 58 :: itoa 0 ++ [58]) ++ itoa h.number := by simp
      rwa [e, List.getLast?_append_of_ne_nil _ (itoa_ne_nil _)] at this
    simp only [List.replicate_one]
    rw [trimRight_append_single, hl]
    simp [pre]
  | err => simp [ht] at h3
  | panic => simp [ht] at h3

/-- Reading the own message header does not panic, and the version is there. -/
theorem msgHeader_read {h : MsgHeader} (hr : h.ref = none) {b : Bytes} (hm : h.seg.marshal = .ok b)
    (ht : Message.Spec.SegmentText b) (hl : b.length < 2 ^ 63) :
    unmarshalMsgHeader b ≠ .panic ∧ (∀ g, unmarshalMsgHeader b = .ok g → g.hbciVersion ≠ none) ∧ Harmless b := by
  obtain ⟨hd, hb⟩ := msgHeader_bytes hr hm
  have hid : Element.Spec.Latin1 h.seg.header.id := Dialog.latin1_of_all (by show (c!"HNHBK").all _ = true; decide)
  have lc : ∀ {b : Bytes}, Even loud b → Even (· == 43) b := fun h =>
    h.mono (by intro c hc; simp only [beq_iff_eq] at hc; subst hc; rfl)
  have la : ∀ {b : Bytes}, Even loud b → Even (· == 64) b := fun h =>
    h.mono (by intro c hc; simp only [beq_iff_eq] at hc; subst hc; rfl)
  have hh : Even (· == 43) (headerBytes h.seg.header) := (even_headerBytes hid).mono (by intro c hc; simp only [beq_iff_eq] at hc; subst hc; rfl)
  have hh' : Even (· == 64) (headerBytes h.seg.header) := (even_headerBytes hid).mono (by intro c hc; simp only [beq_iff_eq] at hc; subst hc; rfl)
  generalize hy : (43 : Byte) :: zeroPad 12 h.size ++ 43 :: itoa h.hbciVersion ++ 43 :: enc (escape h.dialogId) ++ 43 :: itoa h.number = y at hb
  have hn : NoBare (· == 64) false (headerBytes h.seg.header ++ y) := by
    rw [← hy]
    have c : ∀ {b : Bytes}, Even (· == 64) b → Even (· == 64) (43 :: b) := fun h => .cons rfl (by decide) h
    exact (hh'.append ((((c (la (noBare_zeroPad 12 _))).append (c (la (noBare_itoa _)))).append (c (la (noBare_enc hd)))).append
      (c (la (noBare_itoa _))))).1
  have hc : cells 43 false (headerBytes h.seg.header ++ y) [] =
      [headerBytes h.seg.header, zeroPad 12 h.size, itoa h.hbciVersion, enc (escape h.dialogId), itoa h.number] := by
    rw [← hy]
    simp only [List.cons_append, List.append_assoc]
    rw [cells_even hh, cells_even (lc (noBare_zeroPad 12 _)), cells_even (lc (noBare_itoa _)), cells_even (lc (noBare_enc hd)),
      cells_last (lc (noBare_itoa _)).1]
    rfl
  subst hb
  obtain ⟨es, h1, h2, h3⟩ := segment_cells ht hl hn
  have he : es = [headerBytes h.seg.header, zeroPad 12 h.size, itoa h.hbciVersion, enc (escape h.dialogId), itoa h.number] := by
    rw [hc] at h2
    rcases h2 with h2 | h2
    · exact h2.symm
    · exfalso
      have := congrArg List.getLast? h2
      simp at this
      exact itoa_ne_nil _ this
  subst he
  have hq : ∀ f ∈ [headerBytes h.seg.header, zeroPad 12 h.size, itoa h.hbciVersion, enc (escape h.dialogId), itoa h.number], Calm f :=
    fun f hf => let ⟨a, b, c⟩ := h3 f hf; ⟨a, b, c⟩
  have key : unmarshalMsgHeader (headerBytes h.seg.header ++ y ++ [39]) ≠ .panic := by
    unfold unmarshalMsgHeader
    rw [h1]
    refine bind_safe (by simp) fun es' he => ?_
    simp only [Outcome.ok.injEq] at he
    subst he
    refine bind_safe (unmarshalHeader_no_panic (hq _ (by simp)).1 (hq _ (by simp)).2) fun _ _ => ?_
    refine bind_safe (field_safe hq safe_number) fun _ _ => bind_safe (field_safe hq safe_number) fun _ _ => ?_
    refine bind_safe (field_safe hq fun _ _ => by simp) fun _ _ => bind_safe (field_safe hq safe_number) fun _ _ => ?_
    refine bind_safe ?_ fun _ _ => by simp
    rw [lastField_short (by simp)]
    simp
  refine ⟨key, ?_, ?_⟩
  · intro g hg
    unfold unmarshalMsgHeader at hg
    rw [h1] at hg
    obtain ⟨es', he, hg⟩ := Dialog.bind_ok hg
    simp only [Outcome.ok.injEq] at he
    subst he
    obtain ⟨_, _, hg⟩ := Dialog.bind_ok hg
    obtain ⟨_, _, hg⟩ := Dialog.bind_ok hg
    obtain ⟨ver, hv, hg⟩ := Dialog.bind_ok hg
    obtain ⟨_, _, hg⟩ := Dialog.bind_ok hg
    obtain ⟨_, _, hg⟩ := Dialog.bind_ok hg
    obtain ⟨_, _, hg⟩ := Dialog.bind_ok hg
    simp only [Outcome.ok.injEq] at hg
    rw [← hg]
    unfold Message.field at hv
    simp only [List.getElem?_cons_succ, List.getElem?_cons_zero, if_neg (itoa_ne_nil _)] at hv
    obtain ⟨n, _, rfl⟩ := Dialog.map_ok hv
    simp
  · have hid' : h.seg.header.id = c!"HNHBK" := rfl
    refine harmless_of hid (Or.inr ⟨_, by rw [← hy]; rfl⟩) ht hl hn (by rw [hid']; decide) ?_
    intro g f hg hf
    rw [hid'] at hf
    obtain ⟨u, hu, rfl⟩ := decoderFor_known (by decide) (by decide) hf
    apply map_safe
    have hu : g.version = 3 ∧ u = fun b => (unmarshalMsgHeader b).map' .messageHeader := by simpa [known] using hu
    rw [hu.2]
    exact map_safe key

end Verif.Bank

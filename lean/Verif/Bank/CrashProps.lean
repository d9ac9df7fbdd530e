import Verif.Bank.SetupProps
import Verif.Message.ReaderProps

/-
C93: segments of the bank parameters that crash the client, and with it the whole answer.
-/

namespace Verif.Bank

open GoLib Charset Element Element.Spec Segment Segment.Spec Message Message.Spec Verif.Token.Spec Dialog

/-- Whether the segment `m` with this ID and version can be decoded, whatever is done with it
afterwards. -/
abbrev decodes (id : Str) (version : Int) (m : Bytes) : Outcome Unit := seen (fun _ => .ok ()) id version m

theorem decodes_opaque (o : Outcome Header) : (o.map' BankSeg.unread).bind (fun _ => Outcome.ok ()) = o.map' fun _ => () := by
  cases o <;> rfl

theorem nil_field {α : Type} {l : List Bytes} {i : Nat} :
    lastField l i (unmarshalNil (α := α)) = if l.getD i [] = [] then .ok none else .panic := by
  unfold lastField
  rw [List.getD_eq_getElem?_getD]
  cases hx : l[i]? with
  | none => simp
  | some b =>
    by_cases hb : b = []
    · simp [hb]
    · simp [hb, unmarshalNil]

/-- C93: a segment HIKPV crashes the client if it names a compression method, that is, unless its
first field is missing or empty. -/
theorem C93_compression {fs : List Bytes} {p r : Int} (hp : IsInt p) (hr : IsInt r) (hf : ∀ f ∈ fs, Field f)
    (hlast : fs.getLast? ≠ some []) (hs : (fs.flatMap (fun f => 43 :: f)).length ≤ 2 ^ 61) :
    decodes c!"HIKPV" 1 (segmentBytes c!"HIKPV" p 1 r fs) = if fs.getD 0 [] = [] then .ok () else .panic := by
  have hw : Wire ⟨c!"HIKPV", p, 1, some r⟩ fs _ :=
    wire_of_fields (id := c!"HIKPV") (by decide) hp (by unfold IsInt; omega) hr (by decide) hf hlast hs
  obtain ⟨hb, _, h2⟩ := generated_of_wire hw
  show ((unmarshalCompression _).map' BankSeg.unread).bind _ = _
  rw [decodes_opaque]
  unfold unmarshalCompression opaqueSegment
  rw [h2]
  simp only [checkFields, Outcome.bind, nil_field]
  have : (hb :: fs).getD 1 [] = fs.getD 0 [] := by simp
  rw [this]
  split <;> rfl

/-- C93: a segment HIKOM crashes the client if it names a way of access. -/
theorem C93_communication {country language : Int} {bank : Str} {fs : List Bytes} {p r : Int} (hp : IsInt p) (hr : IsInt r)
    (hc : IsInt country) (hl : IsInt language) (hb : Sendable bank ∧ NoSep bank) (hf : ∀ f ∈ fs, Field f)
    (hlast : fs.getLast? ≠ some [])
    (hs : ((join 58 [zeroPad 3 country, enc (escape bank)] :: itoa language :: fs).flatMap (fun f => 43 :: f)).length ≤ 2 ^ 61) :
    decodes c!"HIKOM" 3 (segmentBytes c!"HIKOM" p 3 r (join 58 [zeroPad 3 country, enc (escape bank)] :: itoa language :: fs)) =
      if fs.getD 0 [] = [] then .ok () else .panic := by
  have hcl : ∀ q ∈ [zeroPad 3 country, enc (escape bank)], CleanPart q := by
    intro q hq
    simp only [List.mem_cons, List.not_mem_nil, or_false] at hq
    rcases hq with rfl | rfl
    · exact clean_zeroPad _ _
    · exact clean_text hb.1 hb.2
  have hw : Wire ⟨c!"HIKOM", p, 3, some r⟩ (join 58 [zeroPad 3 country, enc (escape bank)] :: itoa language :: fs) _ :=
    wire_of_fields (id := c!"HIKOM") (by decide) hp (by unfold IsInt; omega) hr (by decide) (by
      intro f hm
      simp only [List.mem_cons] at hm
      rcases hm with rfl | rfl | hm
      · exact field_group hcl
      · exact .one (itoa_value _)
      · exact hf f hm) (by
      rcases List.eq_nil_or_concat fs with rfl | ⟨i, x, rfl⟩
      · simp [itoa_ne_nil]
      · rw [List.concat_eq_append] at hlast ⊢
        rw [← List.cons_append, ← List.cons_append, List.getLast?_concat]
        simpa using hlast) hs
  obtain ⟨hd, h1, h2⟩ := generated_of_wire hw
  show ((unmarshalCommunication _).map' BankSeg.unread).bind _ = _
  rw [decodes_opaque]
  unfold unmarshalCommunication opaqueSegment
  rw [h2]
  have f1 : field (hd :: join 58 [zeroPad 3 country, enc (escape bank)] :: itoa language :: fs) 1
      (check unmarshalBankIdentification) = .ok (some ()) := by
    refine field_at rfl (by simp [join]) ?_
    show Outcome.map' _ _ = _
    rw [bank_read hc hb.1 hb.2 (h1 _ (by simp))]
    rfl
  have f2 : field (hd :: join 58 [zeroPad 3 country, enc (escape bank)] :: itoa language :: fs) 2
      (check unmarshalNumber) = .ok (some ()) := field_at rfl (itoa_ne_nil _) (check_number hl)
  simp only [checkFields, f1, f2, Outcome.bind, nil_field]
  have : (hd :: join 58 [zeroPad 3 country, enc (escape bank)] :: itoa language :: fs).getD 3 [] = fs.getD 0 [] := by simp
  rw [this]
  split <;> rfl

theorem split_all (b : Bytes) : (∀ q ∈ split 58 b, q = []) ↔ ∀ c ∈ b, c = 58 := by
  induction b with
  | nil => simp [split]
  | cons a b ih =>
    by_cases ha : a = 58
    · subst ha
      simp [split, ih]
    · have : ∃ q ∈ split 58 (a :: b), q ≠ [] := by
        simp only [split, beq_iff_eq, ha, if_false]
        cases split 58 b <;> simp
      obtain ⟨q, hq, hne⟩ := this
      constructor
      · intro h; exact absurd (h q hq) hne
      · intro h; exact absurd (h a (by simp)) ha

theorem split_rest (b : Bytes) :
    (∀ q ∈ (split 58 b).tail, q = []) ↔ ∀ x y, b = x ++ 58 :: y → ∀ c ∈ y, c = 58 := by
  induction b with
  | nil => simp [split]
  | cons a b ih =>
    by_cases ha : a = 58
    · subst ha
      simp only [split, beq_self_eq_true, if_true, List.tail_cons, split_all]
      constructor
      · intro h x y hxy c hc
        cases x with
        | nil =>
          simp only [List.nil_append, List.cons.injEq, true_and] at hxy
          subst hxy
          exact h c hc
        | cons x0 x =>
          simp only [List.cons_append, List.cons.injEq] at hxy
          exact h c (by rw [hxy.2]; simp [hc])
      · intro h
        exact h [] b rfl
    · have ht : (split 58 (a :: b)).tail = (split 58 b).tail := by
        simp only [split, beq_iff_eq, ha, if_false]
        cases split 58 b <;> simp
      rw [ht, ih]
      constructor
      · intro h x y hxy c hc
        cases x with
        | nil =>
          simp only [List.nil_append, List.cons.injEq] at hxy
          exact absurd hxy.1 ha
        | cons x0 x =>
          simp only [List.cons_append, List.cons.injEq] at hxy
          exact h x y hxy.2 c hc
      · intro h x y hxy
        exact h (a :: x) y (by rw [hxy]; rfl)

/-- C93: a segment HISHV crashes the client if it names a version of a security method: if
anything but colons follows a colon. -/
theorem C93_security {mixing : Bool} {f : Bytes} {fs : List Bytes} {p r : Int} (hp : IsInt p) (hr : IsInt r)
    (hf : ∀ g ∈ f :: fs, Field g) (hne : f ≠ []) (hlast : (f :: fs).getLast? ≠ some [])
    (hs : ((marshalBool mixing :: f :: fs).flatMap (fun f => 43 :: f)).length ≤ 2 ^ 61) :
    (decodes c!"HISHV" 2 (segmentBytes c!"HISHV" p 2 r (marshalBool mixing :: f :: fs)) = .ok () ∨
      decodes c!"HISHV" 2 (segmentBytes c!"HISHV" p 2 r (marshalBool mixing :: f :: fs)) = .panic) ∧
    (decodes c!"HISHV" 2 (segmentBytes c!"HISHV" p 2 r (marshalBool mixing :: f :: fs)) = .panic ↔
      ∃ x y c, join 43 (f :: fs) = x ++ 58 :: y ∧ c ∈ y ∧ c ≠ 58) := by
  have hw : Wire ⟨c!"HISHV", p, 2, some r⟩ (marshalBool mixing :: f :: fs) _ :=
    wire_of_fields (id := c!"HISHV") (by decide) hp (by unfold IsInt; omega) hr (by decide) (by
      intro g hm
      rcases List.mem_cons.1 hm with rfl | hm
      · exact field_of_part (clean_bool mixing).1
      · exact hf g hm) (by simpa using hlast) hs
  obtain ⟨hd, h1, h2⟩ := generated_of_wire hw
  have key : decodes c!"HISHV" 2 (segmentBytes c!"HISHV" p 2 r (marshalBool mixing :: f :: fs)) =
      checkSecurityMethod (join 43 (f :: fs)) := by
    show ((unmarshalSecurityMethod _).map' BankSeg.unread).bind _ = _
    rw [decodes_opaque]
    unfold unmarshalSecurityMethod opaqueSegment
    rw [h2]
    have f1 : field (hd :: marshalBool mixing :: f :: fs) 1 (check unmarshalBool) = .ok (some ()) := by
      refine field_at rfl (by cases mixing <;> simp [marshalBool]) ?_
      cases mixing <;> rfl
    have f2 : lastField (hd :: marshalBool mixing :: f :: fs) 2 checkSecurityMethod =
        (checkSecurityMethod (join 43 (f :: fs))).map' some := by
      simp [lastField, hne]
    simp only [checkFields, f1, f2, Outcome.bind]
    cases checkSecurityMethod (join 43 (f :: fs)) <;> rfl
  rw [key]
  have hs := split_rest (join 43 (f :: fs))
  unfold checkSecurityMethod
  have hneg : (∃ x y c, join 43 (f :: fs) = x ++ 58 :: y ∧ c ∈ y ∧ c ≠ 58) ↔
      ¬ ∀ x y, join 43 (f :: fs) = x ++ 58 :: y → ∀ c ∈ y, c = 58 := by
    push Not
    simp only [exists_and_left]
  rw [hneg, ← hs]
  cases split 58 (join 43 (f :: fs)) with
  | nil => simp
  | cons a rest =>
    by_cases h : ∀ q ∈ rest, q = []
    · have h' : rest.all (· == []) = true := by simpa using h
      simp only [h', if_true, List.tail_cons]
      simpa using h
    · have h' : rest.all (· == []) = false := by
        rw [Bool.eq_false_iff]
        intro hc
        exact h (by simpa using hc)
      simp only [h', List.tail_cons]
      simpa using h

/-- C93: a signature end of version 2 with PIN and TAN crashes the client. -/
theorem C93_signature {reference : Str} {ps : List Bytes} {p r : Int} (hp : IsInt p) (hr : IsInt r) (href : Sendable reference)
    (hps : ∀ q ∈ ps, CleanPart q) (hne : ps ≠ []) (hj : join 58 ps ≠ [])
    (hs : ([enc (escape reference), [], join 58 ps].flatMap (fun f => 43 :: f)).length ≤ 2 ^ 61) :
    decodes c!"HNSHA" 2 (segmentBytes c!"HNSHA" p 2 r [enc (escape reference), [], join 58 ps]) =
      if ps.length < 2 then .err else .panic := by
  have hw : Wire ⟨c!"HNSHA", p, 2, some r⟩ [enc (escape reference), [], join 58 ps] _ :=
    wire_of_fields (id := c!"HNSHA") (by decide) hp (by unfold IsInt; omega) hr (by decide) (by
      intro f hm
      simp only [List.mem_cons, List.not_mem_nil, or_false] at hm
      rcases hm with rfl | rfl | rfl
      · exact field_of_part (part_of_sendable href)
      · exact .nil
      · exact field_group hps) (by simpa using hj) hs
  obtain ⟨hd, h1, h2⟩ := generated_of_wire hw
  show ((unmarshalSignatureEndV2 _).map' BankSeg.unread).bind _ = _
  rw [decodes_opaque]
  unfold unmarshalSignatureEndV2 opaqueSegment
  rw [h2]
  have f1 : ∃ o, field [hd, enc (escape reference), [], join 58 ps] 1 anyText = .ok o := by
    by_cases h : enc (escape reference) = []
    · exact ⟨_, (field_nil _ (.inr (by simpa using h))).1⟩
    · exact ⟨_, field_at rfl h rfl⟩
  have f2 : field [hd, enc (escape reference), [], join 58 ps] 2 (check unmarshalBinary) = .ok none :=
    (field_nil _ (.inr rfl)).1
  have f3 : lastField [hd, enc (escape reference), [], join 58 ps] 3 checkCustomSignature =
      (checkCustomSignature (join 58 ps)).map' some := by
    simp [lastField, hj, join]
  obtain ⟨o, f1⟩ := f1
  simp only [checkFields, f1, f2, f3, Outcome.bind]
  unfold checkCustomSignature
  rw [extract_join hne hps (h1 _ (by simp))]
  by_cases h : ps.length < 2 <;> simp [Outcome.bind, h, Outcome.map']

/-! ## The whole answer -/

theorem wire_segmentText {h : Header} {fs : List Bytes} {m : Bytes} (hw : Wire h fs m) : SegmentText m := by
  obtain ⟨hb, h1, rfl⟩ := hw.bytes
  have hbf : Field hb := by rw [header_marshal_eq h1]; exact header_field (header_latin1 h1) hw.id.1
  have hall : ∀ f ∈ hb :: fs, Field f := by
    intro f hf
    rcases List.mem_cons.1 hf with rfl | hf
    · exact hbf
    · exact hw.fields f hf
  rcases List.eq_nil_or_concat fs with rfl | ⟨i, x, rfl⟩
  · have := segmentText_fields (init := []) (p := hb) (by simpa using hbf)
    simpa only [pre, List.flatMap_nil, List.nil_append, join] using this
  · rw [List.concat_eq_append] at hall ⊢
    rw [← List.cons_append, join_snoc]
    exact segmentText_fields (by simpa using hall)

/-- C93: a segment that crashes its decoder crashes the reading of the whole message, whatever
follows it, provided that what stands before it can be read. -/
theorem C93_message {before after : List Bytes} {id : Str} {p v r : Int} {fs : List Bytes} {m0 : SegmentMap BankSeg}
    {e0 : Extractor} (hsb : ∀ s ∈ before, SegmentText s) (hsa : ∀ s ∈ after, SegmentText s)
    (h0 : unmarshalMessage decoders before.flatten = .ok (m0, e0))
    (hw : Wire ⟨id, p, v, some r⟩ fs (segmentBytes id p v r fs)) (hd : decodes id v (segmentBytes id p v r fs) = .panic)
    (hl : (before ++ segmentBytes id p v r fs :: after).flatten.length < 2 ^ 63) :
    unmarshalMessage decoders (before ++ segmentBytes id p v r fs :: after).flatten = .panic := by
  have hst : ∀ s ∈ before ++ segmentBytes id p v r fs :: after, SegmentText s := by
    intro s hs
    rcases List.mem_append.1 hs with hs | hs
    · exact hsb s hs
    · rcases List.mem_cons.1 hs with rfl | hs
      · exact wire_segmentText hw
      · exact hsa s hs
  have hx := C14_segments hst hl
  have hlb : before.flatten.length < 2 ^ 63 := by
    rw [List.flatten_append, List.length_append] at hl
    omega
  have hxb := C14_segments hsb hlb
  obtain ⟨ss, hs, h1, h2, h3⟩ := (C65_reads decoders before.flatten m0).1 ⟨e0, h0⟩
  rw [hxb] at h1
  cases h1
  refine (C65_panic decoders hl).2 (.inr ⟨before, segmentBytes id p v r fs, after, hs, hx, h2, ?_, .inr ?_⟩)
  · intro i o ho
    rw [← h3 i] at ho
    obtain ⟨d, _, rfl⟩ := List.mem_map.1 ho
    exact ⟨d, rfl⟩
  · obtain ⟨hb, _, g1, g2⟩ := generated_wire hw
    unfold decodes seen at hd
    cases hdec : decoders id v with
    | none => rw [hdec] at hd; simp at hd
    | some f =>
      rw [hdec] at hd
      change (f _).bind _ = _ at hd
      refine ⟨_, f, ⟨hb, fs, g1, g2⟩, ?_, ?_, hdec, ?_⟩
      · rintro rfl
        have : decoders c!"HIRMG" v = none := by
          simp [decoders, known]
        simp [this] at hdec
      · rintro rfl
        have : decoders c!"HIRMS" v = none := by
          simp [decoders, known]
        simp [this] at hdec
      · cases hfm : f (segmentBytes id p v r fs) with
        | ok d => rw [hfm] at hd; simp [Outcome.bind] at hd
        | err => rw [hfm] at hd; simp [Outcome.bind] at hd
        | panic => rfl

/-- Non-vacuity: the segments of bank parameters as the specification of HBCI 2.2 prints them; the
hypotheses of C93_security and C93_message are met. -/
example :
    segmentBytes c!"HISHV" 3 2 4 [marshalBool true, b!"RDH:1", b!"DDV:2"] = b!"HISHV:3:2:4+J+RDH:1+DDV:2'" ∧
    decodes c!"HISHV" 2 b!"HISHV:3:2:4+J+RDH:1+DDV:2'" = .panic ∧
    decodes c!"HISHV" 2 b!"HISHV:3:2:4+J+RDH+DDV'" = .ok () ∧
    decodes c!"HIKOM" 3 b!"HIKOM:4:3:4+280:10020030+1+3:www.bank.de::MIM:1'" = .panic ∧
    decodes c!"HIKOM" 3 b!"HIKOM:4:3:4+280:10020030+1'" = .ok () ∧
    decodes c!"HIKPV" 1 b!"HIKPV:5:1:4+1:2'" = .panic ∧
    decodes c!"HNSHA" 2 b!"HNSHA:5:2:4+4711++12345:6'" = .panic ∧
    decodes c!"HNSHA" 2 b!"HNSHA:5:2:4+4711'" = .ok () := by
  decide +kernel

example : Field b!"RDH:1" ∧ Field b!"DDV:2" := by
  have h : ∀ s : Str, (s.all fun c => decide (c.toNat ≤ 255) && c != '\x00') = true → s.head? ≠ some '0' →
      NoSep s → CleanPart (enc (escape s)) := fun s h1 h2 h3 => clean_text (sendable_of h1 h2) h3
  have e1 := field_group (ps := [enc (escape c!"RDH"), itoa 1]) (by
    intro q hq
    simp only [List.mem_cons, List.not_mem_nil, or_false] at hq
    rcases hq with rfl | rfl
    · exact h _ (by decide) (by decide) (by unfold NoSep; decide)
    · exact clean_number 1)
  have e2 := field_group (ps := [enc (escape c!"DDV"), itoa 2]) (by
    intro q hq
    simp only [List.mem_cons, List.not_mem_nil, or_false] at hq
    rcases hq with rfl | rfl
    · exact h _ (by decide) (by decide) (by unfold NoSep; decide)
    · exact clean_number 2)
  exact ⟨e1, e2⟩

/-- An answer to which nothing is wrong but that it offers compression. -/
example : (∃ r, unmarshalMessage decoders b!"HIRMG:2:2+0010::ok'" = .ok r) ∧
    (unmarshalMessage decoders b!"HIRMG:2:2+0010::ok'HIKPV:5:1:4+1:2'HISYN:6:3:4+4711'").map' (fun _ => ()) = .panic := by
  refine ⟨?_, by decide +kernel⟩
  cases h : unmarshalMessage decoders b!"HIRMG:2:2+0010::ok'" with
  | ok r => exact ⟨r, rfl⟩
  | err =>
    have : (unmarshalMessage decoders b!"HIRMG:2:2+0010::ok'").map' (fun _ => ()) = .ok () := by decide +kernel
    rw [h] at this
    simp [Outcome.map'] at this
  | panic =>
    have : (unmarshalMessage decoders b!"HIRMG:2:2+0010::ok'").map' (fun _ => ()) = .ok () := by decide +kernel
    rw [h] at this
    simp [Outcome.map'] at this

end Verif.Bank

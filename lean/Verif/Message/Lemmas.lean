import Verif.Message.ExtractorProps
import Verif.Message.Model

/-
Lemmas about messages.
-/

namespace Verif.Message

open GoLib Token Verif.Token.Spec Message.Spec Element Element.Spec Segment

theorem natDec_len_le {n w : Nat} (hw : 0 < w) (h : n < 10 ^ w) : (natDec n).length ≤ w := natDec_length_le hw h

theorem zeroPad_length {n : Int} (h1 : -(10 ^ 11) < n) (h2 : n < 10 ^ 12) : (zeroPad 12 n).length = 12 := by
  unfold zeroPad
  by_cases hn : n < 0
  · have : (natDec n.natAbs).length ≤ 11 := natDec_len_le (by omega) (by omega)
    simp only [hn, if_true, List.length_cons, List.length_append, List.length_replicate]
    omega
  · have : (natDec n.natAbs).length ≤ 12 := natDec_len_le (by omega) (by omega)
    simp only [hn, if_false, List.length_append, List.length_replicate]
    omega

theorem itoa_trim (n : Int) (r : List Bytes) : trimRight 43 (join 43 (itoa n :: r)) ≠ [] := by
  have hne : trimRight 43 (itoa n) ≠ [] := by
    rw [trimRight_of_last]
    · exact itoa_ne_nil n
    · intro h
      have := itoa_mem (List.mem_of_getLast? h)
      simp [Digit] at this
  obtain ⟨init, p, k, hp, he⟩ := dropTrailing_exists (itoa n :: r) ⟨itoa n, by simp, itoa_ne_nil n⟩
  cases init with
  | nil =>
    simp only [List.nil_append, List.singleton_append, List.cons.injEq] at he
    rw [he.1, he.2, ← he.1]
    have := trim_join (c := 43) (out := []) (p := itoa n) (k := k) hne
    rw [List.nil_append, List.singleton_append] at this
    rw [this]
    simpa [pre] using hne
  | cons a init =>
    simp only [List.cons_append, List.cons.injEq] at he
    obtain ⟨ha, hr⟩ := he
    subst ha
    intro h
    -- everything would be `+`
    obtain ⟨j, hj⟩ := trimRight_spec 43 (join 43 (itoa n :: r))
    rw [h, List.nil_append] at hj
    have hmem : ∀ b ∈ itoa n, b = 43 := by
      intro b hb
      have : b ∈ join 43 (itoa n :: r) := by
        cases r with
        | nil => simpa [join] using hb
        | cons x xs => simp [join, hb]
      rw [hj] at this
      exact (List.mem_replicate.1 this).2
    obtain ⟨b, hb⟩ := List.exists_mem_of_ne_nil _ (itoa_ne_nil n)
    have h1 := hmem b hb
    have h2 := itoa_mem hb
    subst h1
    simp [Digit] at h2

instance (s : Str) : Decidable (Latin1 s) := by unfold Latin1; infer_instance

theorem headerBytes_plain (id : Str) (hid : Latin1 id) (pos ver : Int) :
    (newHeader id pos ver).marshal = .ok (enc (escape id) ++ 58 :: itoa pos ++ 58 :: itoa ver) := by
  rw [header_marshal (newHeader id pos ver) hid]
  simp [headerBytes, newHeader]

/-- What the message header looks like on the wire: only the twelve digits depend on
the size. -/
theorem msgHeader_marshal (h : MsgHeader) :
    ∃ T : Outcome Bytes, ∀ n, (MsgHeader.seg { h with size := n }).marshal =
      T.map' fun t => b!"HNHBK:" ++ itoa h.position ++ b!":3+" ++ zeroPad 12 n ++ 43 :: t := by
  refine ⟨(DE.marshalAll [some (.number h.hbciVersion 3), some (.identification h.dialogId 30),
     some (.number h.number 4), h.ref.map referencingMessage]).map' fun ps => trimRight 43 (join 43 ps) ++ [39], ?_⟩
  intro n
  have hh : (newHeader c!"HNHBK" h.position 3).marshal = .ok (b!"HNHBK:" ++ itoa h.position ++ b!":3") := by
    rw [headerBytes_plain _ (by decide)]
    simp [enc, escape, special, itoa]
    decide
  unfold MsgHeader.seg newSegment Seg.marshal
  simp only [hh, Outcome.bind]
  rw [DE.marshalAll]
  simp only [DE.marshalOpt, DE.marshal, Outcome.bind, marshalDigit]
  cases hr : DE.marshalAll [some (.number h.hbciVersion 3), some (.identification h.dialogId 30),
     some (.number h.number 4), h.ref.map referencingMessage] with
  | err => simp
  | panic => simp
  | ok ps =>
    simp only [Outcome.map', Outcome.ok.injEq]
    rw [DE.marshalAll] at hr
    simp only [DE.marshalOpt, DE.marshal, Outcome.bind, marshalNumber] at hr
    obtain ⟨qs, rfl⟩ : ∃ qs, ps = itoa h.hbciVersion :: qs := by
      revert hr
      cases DE.marshalAll [some (.identification h.dialogId 30), some (.number h.number 4), h.ref.map referencingMessage] with
      | err => simp
      | panic => simp
      | ok qs => intro hr; simp at hr; exact ⟨qs, hr.symm⟩
    have hj : join 43 ((b!"HNHBK:" ++ itoa h.position ++ b!":3") :: zeroPad 12 n :: itoa h.hbciVersion :: qs) =
        (b!"HNHBK:" ++ itoa h.position ++ b!":3+" ++ zeroPad 12 n ++ [43]) ++ join 43 (itoa h.hbciVersion :: qs) := by
      simp [join]
    rw [hj, trimRight_prefix _ (itoa_trim _ _)]
    simp

theorem text_ne_err (v : Str) : marshalText v ≠ .err := by
  unfold marshalText Charset.toISO
  split <;> simp

mutual
/-- Marshalling an element never returns an error; it can only panic. -/
theorem marshal_ne_err : (e : DE) → e.marshal ≠ .err
  | .alnum v _ => by rw [DE.marshal]; exact text_ne_err v
  | .text v _ => by rw [DE.marshal]; exact text_ne_err v
  | .digit _ _ => by rw [DE.marshal]; simp
  | .number _ _ => by rw [DE.marshal]; simp
  | .float _ _ => by rw [DE.marshal]; simp
  | .dtaus _ _ => by rw [DE.marshal]; simp
  | .binary _ _ => by rw [DE.marshal]; simp
  | .boolean _ => by rw [DE.marshal]; simp
  | .code v _ _ => by rw [DE.marshal]; exact text_ne_err v
  | .date _ => by rw [DE.marshal]; simp
  | .virtualDate _ _ => by rw [DE.marshal]; simp
  | .time _ => by rw [DE.marshal]; simp
  | .identification v _ => by rw [DE.marshal]; exact text_ne_err v
  | .countryCode _ _ => by rw [DE.marshal]; simp
  | .currency v _ => by rw [DE.marshal]; exact text_ne_err v
  | .value _ _ => by rw [DE.marshal]; simp
  | .group _ es => by
    have := marshalAll_ne_err es
    rw [DE.marshal]
    cases h : DE.marshalAll es <;> simp_all
  | .array _ _ es => by
    have := marshalAll_ne_err es
    rw [DE.marshal]
    cases h : DE.marshalAll es <;> simp_all

theorem marshalAll_ne_err : (es : List (Option DE)) → DE.marshalAll es ≠ .err
  | [] => by rw [DE.marshalAll]; simp
  | none :: r => by
    have := marshalAll_ne_err r
    rw [DE.marshalAll, DE.marshalOpt]
    cases h : DE.marshalAll r <;> simp_all
  | some e :: r => by
    have h1 := marshal_ne_err e
    have h2 := marshalAll_ne_err r
    rw [DE.marshalAll, DE.marshalOpt]
    cases h : e.marshal <;> cases h' : DE.marshalAll r <;> simp_all
end

theorem seg_ne_err (s : Seg) : s.marshal ≠ .err := by
  unfold Seg.marshal Header.marshal
  have h1 := marshal_ne_err s.header.de
  have h2 := marshalAll_ne_err s.elements
  cases h : s.header.de.marshal <;> cases h' : DE.marshalAll s.elements <;> simp_all

theorem segOpt_ne_err (s : Option Seg) : marshalSegOpt s ≠ .err := by
  cases s with
  | none => simp [marshalSegOpt]
  | some s => exact seg_ne_err s

theorem segs_ne_err (ss : List (Option Seg)) : marshalSegs ss ≠ .err := by
  induction ss with
  | nil => simp [marshalSegs]
  | cons s r ih =>
    rw [marshalSegs]
    have := segOpt_ne_err s
    cases h : marshalSegOpt s <;> cases h' : marshalSegs r <;> simp_all

/-! ## The transmitted segments -/

/-- The segments of a message in the order of transmission. -/
def transmitted (m : BasicMessage) : List Seg :=
  m.header.seg :: m.sigBegin.toList ++ (m.content.getD []).filterMap id ++ m.sigEnd.toList ++ [m.end_.seg]

/-- The bytes of a list of segments, if all can be marshalled. -/
def marshalAllSegs (ss : List Seg) : Outcome Bytes := marshalSegs (ss.map some)

theorem marshalSegs_append (a b : List (Option Seg)) :
    marshalSegs (a ++ b) = (marshalSegs a).bind fun x => (marshalSegs b).map' fun y => x ++ y := by
  induction a with
  | nil => cases h : marshalSegs b <;> simp [marshalSegs, h]
  | cons s r ih =>
    rw [List.cons_append, marshalSegs, marshalSegs, ih]
    cases marshalSegOpt s <;> cases marshalSegs r <;> cases marshalSegs b <;> simp

theorem marshalSegs_filterMap (ss : List (Option Seg)) : marshalAllSegs (ss.filterMap id) = marshalSegs ss := by
  unfold marshalAllSegs
  induction ss with
  | nil => rfl
  | cons s r ih =>
    cases s with
    | none =>
      rw [List.filterMap_cons_none rfl, ih, marshalSegs]
      cases h : marshalSegs r <;> simp [marshalSegOpt]
    | some s =>
      have : (some s :: r).filterMap id = s :: r.filterMap id := rfl
      rw [this, List.map_cons, marshalSegs, marshalSegs, ih]

theorem marshalAllSegs_toList (s : Option Seg) : marshalSegs (s.toList.map some) = marshalSegOpt s := by
  cases s with
  | none => rfl
  | some s => simp [marshalSegs, marshalSegOpt]; cases s.marshal <;> simp

theorem bytes_eq (m : BasicMessage) (segs : List (Option Seg)) (h : m.content = some segs) :
    m.bytes segs = marshalAllSegs (transmitted m) := by
  unfold transmitted marshalAllSegs BasicMessage.bytes
  have h3 := marshalSegs_filterMap segs
  unfold marshalAllSegs at h3
  simp only [List.cons_append, List.map_cons, List.map_append, h, Option.getD_some, marshalSegs, marshalSegs_append,
    marshalAllSegs_toList, h3, List.map_nil]
  have e1 : ∀ x, marshalSegOpt (some x) = x.marshal := fun _ => rfl
  rw [e1, e1]
  cases m.header.seg.marshal with
  | err => simp
  | panic => simp
  | ok x1 =>
    cases marshalSegOpt m.sigBegin with
    | err => simp
    | panic => simp
    | ok x2 =>
      cases marshalSegs segs with
      | err => simp
      | panic => simp
      | ok x3 =>
        cases marshalSegOpt m.sigEnd with
        | err => simp
        | panic => simp
        | ok x4 => cases m.end_.seg.marshal <;> simp

theorem marshalAllSegs_ok {ss : List Seg} {b : Bytes} :
    marshalAllSegs ss = .ok b ↔ ∃ bs : List Bytes, ss.map Seg.marshal = bs.map .ok ∧ b = bs.flatten := by
  unfold marshalAllSegs
  induction ss generalizing b with
  | nil =>
    simp only [List.map_nil, marshalSegs, Outcome.ok.injEq]
    constructor
    · rintro rfl; exact ⟨[], rfl, rfl⟩
    · rintro ⟨bs, h1, rfl⟩
      cases bs with
      | nil => rfl
      | cons x xs => simp at h1
  | cons s r ih =>
    rw [List.map_cons, List.map_cons, marshalSegs, marshalSegOpt]
    constructor
    · intro h
      cases h1 : s.marshal with
      | err => rw [h1] at h; simp at h
      | panic => rw [h1] at h; simp at h
      | ok x =>
        rw [h1] at h
        cases h2 : marshalSegs (r.map some) with
        | err => rw [h2] at h; simp at h
        | panic => rw [h2] at h; simp at h
        | ok y =>
          rw [h2] at h
          simp at h
          obtain ⟨bs, h3, h4⟩ := ih.1 h2
          exact ⟨x :: bs, by simp [h3], by simp [← h, h4]⟩
    · rintro ⟨bs, h1, rfl⟩
      cases bs with
      | nil => simp at h1
      | cons x xs =>
        simp only [List.map_cons, List.cons.injEq] at h1
        rw [h1.1, ih.2 ⟨xs, h1.2, rfl⟩]
        simp

end Verif.Message

import Verif.Element.GroupsLemmas
import Verif.Element.Props
import Verif.Segment.Props
import Verif.Message.Model

/-
Properties of compound data elements (C59, C60, C64, C70, C71).
-/

namespace Verif.Element

open GoLib Token Token.Spec Spec

/-- Text without the characters that end data elements and segments. -/
def NoSep (s : Str) : Prop := '+' ∉ s ∧ '\'' ∉ s

theorem noSep_wire {s : Str} (h : Latin1 s) :
    ((43 : Byte) ∉ enc (escape s) ∧ (39 : Byte) ∉ enc (escape s)) ↔ NoSep s := by
  have h1 := Segment.mem_enc_escape h (c := '+') (Or.inl rfl)
  have h2 := Segment.mem_enc_escape h (c := '\'') (Or.inr rfl)
  exact and_congr (not_congr h1) (not_congr h2)

theorem zeroPad_clean (w : Nat) (n : Int) :
    (43 : Byte) ∉ zeroPad w n ∧ (39 : Byte) ∉ zeroPad w n ∧ (zeroPad w n).getLast? ≠ some 58 := by
  have key : ∀ b ∈ zeroPad w n, Digit b ∨ b = 45 := by
    intro b hb
    unfold zeroPad at hb
    split at hb
    · simp only [List.mem_cons, List.mem_append, List.mem_replicate] at hb
      rcases hb with h | ⟨_, h⟩ | h
      · exact Or.inr h
      · left; subst h; unfold Digit; decide
      · exact Or.inl ((natDec_digits _).2 b h)
    · simp only [List.mem_append, List.mem_replicate] at hb
      rcases hb with ⟨_, h⟩ | h
      · left; subst h; unfold Digit; decide
      · exact Or.inl ((natDec_digits _).2 b h)
  refine ⟨fun h => ?_, fun h => ?_, fun h => ?_⟩
  · have := key _ h; revert this; unfold Digit; decide
  · have := key _ h; revert this; unfold Digit; decide
  · have := key _ (List.mem_of_getLast? h); revert this; unfold Digit; decide

theorem zeroPad_ne_nil (w : Nat) (n : Int) : zeroPad w n ≠ [] := value_ne_nil (zeroPad_value w n)

theorem bind_eq_ok {α β : Type} {x : Outcome α} {f : α → Outcome β} {r : β} :
    x.bind f = .ok r ↔ ∃ a, x = .ok a ∧ f a = .ok r := by
  cases x <;> simp [Outcome.bind]

/-! ## C60: account connections -/

/-- C60: reading an account connection the library has written.  It succeeds exactly
if the bank ID is not empty and does not end in `:` and no field contains `+` or `'`;
the fields come back as they are on the wire, escape signs included. -/
theorem C60_reads {c r : AccountConnection} {m : Bytes} (ha : Sendable c.accountID) (hs : Sendable c.sub)
    (hb : Sendable c.bankID) (hn : IsInt c.country) (hm : (accountConnectionDE c).marshal = .ok m)
    (hl : wireSize [enc (escape c.accountID), enc (escape c.sub), zeroPad 3 c.country, enc (escape c.bankID)] < 2 ^ 63) :
    unmarshalAccountConnection m = .ok r ↔
      r = ⟨escape c.accountID, escape c.sub, c.country, escape c.bankID⟩ ∧
      c.bankID ≠ [] ∧ c.bankID.getLast? ≠ some ':' ∧ NoSep c.accountID ∧ NoSep c.sub ∧ NoSep c.bankID := by
  have hps : [some (DE.identification c.accountID 30), some (.identification c.sub 30),
      some (.countryCode c.country 3), some (.alnum c.bankID 30)].map DE.marshalOpt =
      [enc (escape c.accountID), enc (escape c.sub), zeroPad 3 c.country, enc (escape c.bankID)].map .ok := by
    simp [DE.marshalOpt, DE.marshal, marshalText_ok ha.1, marshalText_ok hs.1, marshalText_ok hb.1, marshalDigit]
  have hparts : ∀ p ∈ [enc (escape c.accountID), enc (escape c.sub), zeroPad 3 c.country, enc (escape c.bankID)],
      p = [] ∨ Value p := by
    intro p hp
    simp only [List.mem_cons, List.not_mem_nil, or_false] at hp
    rcases hp with rfl | rfl | rfl | rfl
    · exact part_of_sendable ha
    · exact part_of_sendable hs
    · exact Or.inr (zeroPad_value _ _)
    · exact part_of_sendable hb
  have hne : ∃ p ∈ [enc (escape c.accountID), enc (escape c.sub), zeroPad 3 c.country, enc (escape c.bankID)],
      p ≠ [] := ⟨zeroPad 3 c.country, by simp, zeroPad_ne_nil _ _⟩
  have hsep : (∀ p ∈ [enc (escape c.accountID), enc (escape c.sub), zeroPad 3 c.country, enc (escape c.bankID)],
      43 ∉ p ∧ 39 ∉ p) ↔ NoSep c.accountID ∧ NoSep c.sub ∧ NoSep c.bankID := by
    have := zeroPad_clean 3 c.country
    simp only [List.forall_mem_cons, noSep_wire ha.1, noSep_wire hs.1, noSep_wire hb.1, this.1, this.2.1]
    simp
  unfold unmarshalAccountConnection
  rw [bind_eq_ok]
  by_cases hbn : c.bankID = []
  · have hout : DropTrailing [enc (escape c.accountID), enc (escape c.sub), zeroPad 3 c.country, enc (escape c.bankID)]
        [enc (escape c.accountID), enc (escape c.sub), zeroPad 3 c.country] := by
      refine ⟨1, by rw [hbn]; rfl, ?_⟩
      simpa using zeroPad_ne_nil 3 c.country
    constructor
    · rintro ⟨es, h1, h2⟩
      obtain ⟨rfl, _⟩ := (C12_extract_iff hps hm hparts hne hout hl es).1 h1
      simp [accountParts] at h2
    · rintro ⟨_, h, _⟩; exact absurd hbn h
  · have hout : DropTrailing [enc (escape c.accountID), enc (escape c.sub), zeroPad 3 c.country, enc (escape c.bankID)]
        [enc (escape c.accountID), enc (escape c.sub), zeroPad 3 c.country, enc (escape c.bankID)] := by
      refine ⟨0, by simp, ?_⟩
      simpa using fun h => hbn (enc_escape_nil.1 h)
    have hx := C12_extract_iff hps hm hparts hne hout hl
    have hlast : (∀ p, [enc (escape c.accountID), enc (escape c.sub), zeroPad 3 c.country, enc (escape c.bankID)].getLast?
        = some p → p.getLast? ≠ some 58) ↔ c.bankID.getLast? ≠ some ':' := by
      simp [enc_escape_last hb.1]
    have hval : accountParts [enc (escape c.accountID), enc (escape c.sub), zeroPad 3 c.country, enc (escape c.bankID)]
        = .ok ⟨escape c.accountID, escape c.sub, c.country, escape c.bankID⟩ := by
      simp [accountParts, atoi_zeroPad 3 c.country hn, Outcome.ofOption, Outcome.map', toUTF8_enc (escape_latin1.2 ha.1),
        toUTF8_enc (escape_latin1.2 hs.1), toUTF8_enc (escape_latin1.2 hb.1)]
    constructor
    · rintro ⟨es, h1, h2⟩
      obtain ⟨rfl, h3, h4⟩ := (hx es).1 h1
      rw [hval] at h2
      cases h2
      exact ⟨rfl, hbn, hlast.1 h4, hsep.1 h3⟩
    · rintro ⟨rfl, _, h4, h3⟩
      exact ⟨_, (hx _).2 ⟨rfl, hsep.2 h3, hlast.2 h4⟩, hval⟩

/-- C60: an account connection survives the wire exactly if no field needs escaping
and the bank ID is not empty. -/
theorem C60_roundtrip {c : AccountConnection} {m : Bytes} (ha : Sendable c.accountID) (hs : Sendable c.sub)
    (hb : Sendable c.bankID) (hn : IsInt c.country) (hm : (accountConnectionDE c).marshal = .ok m)
    (hl : wireSize [enc (escape c.accountID), enc (escape c.sub), zeroPad 3 c.country, enc (escape c.bankID)] < 2 ^ 63) :
    unmarshalAccountConnection m = .ok c ↔
      c.bankID ≠ [] ∧ ∀ s ∈ [c.accountID, c.sub, c.bankID], ∀ x ∈ s, ¬ Special x := by
  rw [C60_reads ha hs hb hn hm hl]
  have hno : ∀ s : Str, (∀ x ∈ s, ¬ Special x) → NoSep s ∧ s.getLast? ≠ some ':' := by
    intro s h
    refine ⟨⟨fun hx => h _ hx ?_, fun hx => h _ hx ?_⟩, fun hx => h _ (List.mem_of_getLast? hx) ?_⟩ <;> decide
  constructor
  · rintro ⟨h, hne, _⟩
    have h1 : c.accountID = escape c.accountID := congrArg AccountConnection.accountID h
    have h2 : c.sub = escape c.sub := congrArg AccountConnection.sub h
    have h3 : c.bankID = escape c.bankID := congrArg AccountConnection.bankID h
    refine ⟨hne, ?_⟩
    intro s hs
    simp only [List.mem_cons, List.not_mem_nil, or_false] at hs
    rcases hs with rfl | rfl | rfl
    · exact escape_eq_self.1 h1.symm
    · exact escape_eq_self.1 h2.symm
    · exact escape_eq_self.1 h3.symm
  · rintro ⟨hne, h⟩
    have h1 := h c.accountID (by simp)
    have h2 := h c.sub (by simp)
    have h3 := h c.bankID (by simp)
    refine ⟨?_, hne, (hno _ h3).2, (hno _ h1).1, (hno _ h2).1, (hno _ h3).1⟩
    rw [escape_eq_self.2 h1, escape_eq_self.2 h2, escape_eq_self.2 h3]

/-- C60: account connections with Latin-1 fields can always be written. -/
theorem C60_writes {c : AccountConnection} (ha : Latin1 c.accountID) (hs : Latin1 c.sub) (hb : Latin1 c.bankID) :
    ∃ m, (accountConnectionDE c).marshal = .ok m := by
  simp [accountConnectionDE, DE.marshal, DE.marshalAll, DE.marshalOpt, marshalText_ok ha, marshalText_ok hs,
    marshalText_ok hb, Outcome.map']

/-- A usual account, one with an escaped character, one without bank ID. -/
example :
    (accountConnectionDE ⟨c!"123456", [], 280, c!"10000000"⟩).marshal = .ok b!"123456::280:10000000" ∧
    unmarshalAccountConnection b!"123456::280:10000000" = .ok ⟨c!"123456", [], 280, c!"10000000"⟩ ∧
    (accountConnectionDE ⟨c!"12:3", [], 280, c!"1"⟩).marshal = .ok b!"12?:3::280:1" ∧
    unmarshalAccountConnection b!"12?:3::280:1" = .ok ⟨c!"12?:3", [], 280, c!"1"⟩ ∧
    (accountConnectionDE ⟨c!"12", [], 280, []⟩).marshal = .ok b!"12::280" ∧
    unmarshalAccountConnection b!"12::280" = .err := ⟨rfl, by decide, rfl, by decide, rfl, by decide⟩

/-! ## C70: international account connections -/

/-- The parts of an international account connection on the wire. -/
def internationalWire (c : InternationalConnection) : List Bytes :=
  [enc (escape c.iban), enc (escape c.bic), enc (escape c.accountID), enc (escape c.sub), zeroPad 3 c.country,
    enc (escape c.bankID)]

/-- The nested bank identification could as well be written in place. -/
theorem international_flat {c : InternationalConnection} {m : Bytes} (h1 : Latin1 c.iban) (h2 : Latin1 c.bic)
    (h3 : Latin1 c.accountID) (h4 : Latin1 c.sub) (h5 : Latin1 c.bankID) (hm : (internationalDE c).marshal = .ok m) :
    (DE.group 6 [some (.alnum c.iban 34), some (.alnum c.bic 11), some (.identification c.accountID 30),
      some (.identification c.sub 30), some (.countryCode c.country 3), some (.alnum c.bankID 30)]).marshal = .ok m := by
  rw [← hm]
  unfold internationalDE bankIdentification
  simp only [DE.marshal, DE.marshalAll, DE.marshalOpt, marshalText_ok h1, marshalText_ok h2, marshalText_ok h3,
    marshalText_ok h4, marshalText_ok h5, Outcome.bind, Outcome.map', marshalDigit]
  congr 1
  have hq : trimRight 58 (zeroPad 3 c.country ++ 58 :: enc (escape c.bankID)) ≠ [] := by
    intro he
    obtain ⟨k, hk⟩ := trimRight_spec 58 (zeroPad 3 c.country ++ 58 :: enc (escape c.bankID))
    rw [he, List.nil_append] at hk
    have hall : ∀ b ∈ zeroPad 3 c.country, b = 58 := by
      intro b hb
      exact List.eq_of_mem_replicate (by rw [← hk]; exact List.mem_append_left _ hb)
    have hne := zeroPad_ne_nil 3 c.country
    cases hx : (zeroPad 3 c.country).getLast? with
    | none => exact hne (List.getLast?_eq_none_iff.1 hx)
    | some x => exact (zeroPad_clean 3 c.country).2.2 (by rw [hx, hall x (List.mem_of_getLast? hx)])
  have e1 : ∀ A B C D E F : Bytes, join 58 [A, B, C, D, E, F] = pre 58 [A, B, C, D] ++ (E ++ 58 :: F) := by
    intro A B C D E F; simp [join, pre]
  have e2 : ∀ A B C D E : Bytes, join 58 [A, B, C, D, E] = pre 58 [A, B, C, D] ++ E := by
    intro A B C D E; simp [join, pre]
  rw [e1, e2]
  have e3 : join 58 [zeroPad 3 c.country, enc (escape c.bankID)] = zeroPad 3 c.country ++ 58 :: enc (escape c.bankID) := rfl
  rw [e3]
  have hid : trimRight 58 (trimRight 58 (zeroPad 3 c.country ++ 58 :: enc (escape c.bankID))) =
      trimRight 58 (zeroPad 3 c.country ++ 58 :: enc (escape c.bankID)) :=
    trimRight_of_last (trimRight_getLast? _ _)
  generalize zeroPad 3 c.country ++ 58 :: enc (escape c.bankID) = q at hq hid ⊢
  rw [trimRight_prefix _ hq, trimRight_prefix _ (by rw [hid]; exact hq), hid]

theorem unmarshalText_enc {s : Str} (h : Latin1 s) : unmarshalText (enc (escape s)) = s := by
  unfold unmarshalText
  rw [toUTF8_enc (escape_latin1.2 h), unescape_escape]

/-- C70: reading an international account connection the library has written.  It
succeeds exactly if the bank ID is not empty and does not end in `:` and no field
contains `+` or `'`.  IBAN, BIC, account and sub account come back unchanged, the bank
ID with escape signs. -/
theorem C70_reads {c r : InternationalConnection} {m : Bytes} (h1 : Sendable c.iban) (h2 : Sendable c.bic)
    (h3 : Sendable c.accountID) (h4 : Sendable c.sub) (h5 : Sendable c.bankID) (hn : IsInt c.country)
    (hm : (internationalDE c).marshal = .ok m) (hl : wireSize (internationalWire c) < 2 ^ 63) :
    unmarshalInternational m = .ok r ↔
      r = { c with bankID := escape c.bankID } ∧ c.bankID ≠ [] ∧ c.bankID.getLast? ≠ some ':' ∧
      NoSep c.iban ∧ NoSep c.bic ∧ NoSep c.accountID ∧ NoSep c.sub ∧ NoSep c.bankID := by
  have hm' := international_flat h1.1 h2.1 h3.1 h4.1 h5.1 hm
  have hps : [some (DE.alnum c.iban 34), some (.alnum c.bic 11), some (.identification c.accountID 30),
      some (.identification c.sub 30), some (.countryCode c.country 3), some (.alnum c.bankID 30)].map DE.marshalOpt =
      (internationalWire c).map .ok := by
    simp [internationalWire, DE.marshalOpt, DE.marshal, marshalText_ok h1.1, marshalText_ok h2.1, marshalText_ok h3.1,
      marshalText_ok h4.1, marshalText_ok h5.1, marshalDigit]
  have hparts : ∀ p ∈ internationalWire c, p = [] ∨ Value p := by
    intro p hp
    simp only [internationalWire, List.mem_cons, List.not_mem_nil, or_false] at hp
    rcases hp with rfl | rfl | rfl | rfl | rfl | rfl
    · exact part_of_sendable h1
    · exact part_of_sendable h2
    · exact part_of_sendable h3
    · exact part_of_sendable h4
    · exact Or.inr (zeroPad_value _ _)
    · exact part_of_sendable h5
  have hne : ∃ p ∈ internationalWire c, p ≠ [] :=
    ⟨zeroPad 3 c.country, by simp [internationalWire], zeroPad_ne_nil _ _⟩
  have hz := zeroPad_clean 3 c.country
  have hsep : (∀ p ∈ internationalWire c, 43 ∉ p ∧ 39 ∉ p) ↔
      NoSep c.iban ∧ NoSep c.bic ∧ NoSep c.accountID ∧ NoSep c.sub ∧ NoSep c.bankID := by
    simp only [internationalWire, List.forall_mem_cons, noSep_wire h1.1, noSep_wire h2.1, noSep_wire h3.1,
      noSep_wire h4.1, noSep_wire h5.1, hz.1, hz.2.1]
    simp
  have hlc : (zeroPad 3 c.country).length < 2 ^ 63 ∧
      (zeroPad 3 c.country).length + 1 + (enc (escape c.bankID)).length < 2 ^ 63 := by
    simp [internationalWire, wireSize] at hl ⊢
    omega
  unfold unmarshalInternational
  rw [bind_eq_ok]
  by_cases hbn : c.bankID = []
  · have hout : DropTrailing (internationalWire c) [enc (escape c.iban), enc (escape c.bic),
        enc (escape c.accountID), enc (escape c.sub), zeroPad 3 c.country] := by
      refine ⟨1, by unfold internationalWire; rw [hbn]; rfl, ?_⟩
      simpa using zeroPad_ne_nil 3 c.country
    constructor
    · rintro ⟨es, g1, g2⟩
      obtain ⟨rfl, _⟩ := (C12_extract_iff hps hm' hparts hne hout hl es).1 g1
      have hx : unmarshalBankIdentification (zeroPad 3 c.country) = .err := by
        unfold unmarshalBankIdentification
        rw [extract_part (Or.inr (zeroPad_value _ _)) hlc.1, if_neg (by rintro (h | h) <;> tauto)]
        rfl
      simp [internationalParts, zeroPad_ne_nil, join, hx] at g2
    · rintro ⟨_, h, _⟩; exact absurd hbn h
  · have hout : DropTrailing (internationalWire c) (internationalWire c) := by
      refine ⟨0, by simp, ?_⟩
      simpa [internationalWire] using fun h => hbn (enc_escape_nil.1 h)
    have hx := C12_extract_iff hps hm' hparts hne hout hl
    have hlast : (∀ p, (internationalWire c).getLast? = some p → p.getLast? ≠ some 58) ↔
        c.bankID.getLast? ≠ some ':' := by
      simp [internationalWire, enc_escape_last h5.1]
    have hval : NoSep c.bankID → internationalParts (internationalWire c) = .ok { c with bankID := escape c.bankID } := by
      intro hb
      have hb' := (noSep_wire h5.1).2 hb
      have hbk : unmarshalBankIdentification (zeroPad 3 c.country ++ 58 :: enc (escape c.bankID)) =
          .ok (some c.country, escape c.bankID) := by
        have := extract_parts (init := [zeroPad 3 c.country]) (p := enc (escape c.bankID))
          (by intro q hq; rw [List.mem_singleton.1 hq]; exact Or.inr (zeroPad_value 3 c.country)) (part_of_sendable h5)
          (by simp [pre]; omega)
        rw [if_neg] at this
        · unfold unmarshalBankIdentification
          simp only [pre, List.flatMap_cons, List.flatMap_nil, List.append_nil, List.append_assoc,
            List.singleton_append] at this
          rw [this]
          simp [Outcome.bind, bankParts, unmarshalCountry, atoi_zeroPad 3 c.country hn, Outcome.map',
            toUTF8_enc (escape_latin1.2 h5.1)]
        · simp [pre]
          tauto
      simp [internationalParts, internationalWire, zeroPad_ne_nil, join, hbk, textField, unmarshalText_enc h1.1,
        unmarshalText_enc h2.1, unmarshalText_enc h3.1, unmarshalText_enc h4.1]
    constructor
    · rintro ⟨es, g1, g2⟩
      obtain ⟨rfl, g3, g4⟩ := (hx es).1 g1
      have g3' := hsep.1 g3
      rw [hval g3'.2.2.2.2] at g2
      cases g2
      exact ⟨rfl, hbn, hlast.1 g4, g3'⟩
    · rintro ⟨rfl, _, g4, g3⟩
      exact ⟨_, (hx _).2 ⟨rfl, hsep.2 g3, hlast.2 g4⟩, hval g3.2.2.2.2⟩

/-- C70: an international account connection with a plain bank ID survives the wire,
whatever special characters other than `+` and `'` the other fields contain; without
bank ID it is written but never read back. -/
theorem C70_roundtrip {c : InternationalConnection} {m : Bytes} (h1 : Sendable c.iban) (h2 : Sendable c.bic)
    (h3 : Sendable c.accountID) (h4 : Sendable c.sub) (h5 : Sendable c.bankID) (hn : IsInt c.country)
    (hm : (internationalDE c).marshal = .ok m) (hl : wireSize (internationalWire c) < 2 ^ 63) :
    unmarshalInternational m = .ok c ↔
      c.bankID ≠ [] ∧ (∀ x ∈ c.bankID, ¬ Special x) ∧ ∀ s ∈ [c.iban, c.bic, c.accountID, c.sub], NoSep s := by
  rw [C70_reads h1 h2 h3 h4 h5 hn hm hl]
  constructor
  · rintro ⟨h, hne, _, g1, g2, g3, g4, _⟩
    have e : c.bankID = escape c.bankID := congrArg InternationalConnection.bankID h
    exact ⟨hne, escape_eq_self.1 e.symm, by simp [g1, g2, g3, g4]⟩
  · rintro ⟨hne, hb, h⟩
    simp only [List.forall_mem_cons] at h
    refine ⟨by rw [escape_eq_self.2 hb], hne, fun hx => hb _ (List.mem_of_getLast? hx) (by decide), h.1, h.2.1,
      h.2.2.1, h.2.2.2.1, fun hx => hb _ hx (by decide), fun hx => hb _ hx (by decide)⟩

/-- A usual international account, and one without bank ID. -/
example :
    (internationalDE ⟨c!"DE89370400440532013000", c!"COBADEFFXXX", c!"532013000", [], 280, c!"37040044"⟩).marshal =
      .ok b!"DE89370400440532013000:COBADEFFXXX:532013000::280:37040044" ∧
    unmarshalInternational b!"DE89370400440532013000:COBADEFFXXX:532013000::280:37040044" =
      .ok ⟨c!"DE89370400440532013000", c!"COBADEFFXXX", c!"532013000", [], 280, c!"37040044"⟩ ∧
    (internationalDE ⟨c!"DE89370400440532013000", c!"COBADEFFXXX", [], [], 280, []⟩).marshal =
      .ok b!"DE89370400440532013000:COBADEFFXXX:::280" ∧
    unmarshalInternational b!"DE89370400440532013000:COBADEFFXXX:::280" = .err ∧
    unmarshalInternational b!"DE89370400440532013000:COBADEFFXXX" =
      .ok ⟨c!"DE89370400440532013000", c!"COBADEFFXXX", [], [], 0, []⟩ :=
  ⟨rfl, by decide +kernel, rfl, by decide +kernel, by decide +kernel⟩

/-! ## C71: balances -/

theorem floatString_clean {x : Dec} (h : x.Canonical) : (43 : Byte) ∉ floatString x ∧ (39 : Byte) ∉ floatString x := by
  have hf : ∀ c : Byte, ¬ Digit c → c ∉ x.frac := fun c hc hm => hc (h.1 c hm)
  rw [floatString_eq]
  have h1 : ¬ Digit 43 := by unfold Digit; decide
  have h2 : ¬ Digit 39 := by unfold Digit; decide
  constructor
  · simp [dec_head_not (x := x) h1 (by decide), hf _ h1]
  · simp [dec_head_not (x := x) h2 (by decide), hf _ h2]

theorem digits_clean {v : Bytes} (h : DigitString v) : (43 : Byte) ∉ v ∧ (39 : Byte) ∉ v ∧ v.getLast? ≠ some 58 := by
  refine ⟨fun hm => ?_, fun hm => ?_, fun hm => ?_⟩
  · have := h.2 _ hm; revert this; unfold Digit; decide
  · have := h.2 _ hm; revert this; unfold Digit; decide
  · have := h.2 _ (List.mem_of_getLast? hm); revert this; unfold Digit; decide

theorem negate_abs : ∀ {x : Dec}, x.neg = true → ({ x with neg := false } : Dec).negate = x
  | ⟨true, _, _⟩, _ => rfl

theorem wireSize_five {A B C D E : Bytes} (h : A.length + B.length + C.length + D.length + E.length < 2 ^ 63 - 5) :
    wireSize [A, B, C, D, E] < 2 ^ 63 := by
  simp only [wireSize, List.map_cons, List.map_nil, List.sum_cons, List.sum_nil]
  omega

/-- A float that is not negative zero (which Go treats as equal to zero). -/
def Dec.NotNegZero (x : Dec) : Prop := x ≠ ⟨true, 0, []⟩

/-- C71: a balance survives the wire: indicator and absolute amount are put together to
the signed amount, the date comes back as midnight, the time of day if it was written.
It fails exactly if the currency contains `+` or `'`. -/
theorem C71_reads {a : Amount} {t : Time.Civil} {withTime : Bool} {m : Bytes} {r : Balance}
    (ha : a.amount.Canonical) (h0 : a.amount.NotNegZero) (hc : Sendable a.currency)
    (hy : 0 ≤ t.year ∧ t.year ≤ 9999) (hd : ExistingDate t.year t.month t.day) (ht : TimeOfDay t.hour t.min t.sec)
    (hm : (balanceDE a t withTime).marshal = .ok m)
    (hl : (floatString a.amount).length + (enc (escape a.currency)).length < 2 ^ 62) :
    unmarshalBalance m = .ok r ↔
      r = ⟨a, ⟨t.year, t.month, t.day, 0, 0, 0, 0⟩,
        if withTime then some ⟨0, 1, 1, t.hour, t.min, t.sec, 0⟩ else none⟩ ∧ NoSep a.currency := by
  obtain ⟨d1, d2, _⟩ := format8_spec hy.1 hy.2 hd
  obtain ⟨t1, t2, _⟩ := format6_spec ht
  have hcan : ({ a.amount with neg := false } : Dec).Canonical := ha
  -- the indicator
  have hind : ∃ i : Str, ∃ w : Bytes, marshalText i = .ok w ∧ w ≠ [] ∧ w.length = 1 ∧ Value w ∧ 43 ∉ w ∧ 39 ∉ w ∧
      unmarshalText w = i ∧
      (if (a.amount.neg && (a.amount.int != 0 || a.amount.frac != [])) = true then c!"D" else c!"C") = i ∧
      (if i = c!"D" then ({ a.amount with neg := false } : Dec).negate else { a.amount with neg := false }) = a.amount := by
    have hv : ∀ b : Byte, b = 67 ∨ b = 68 → Value [b] := by
      rintro b (rfl | rfl)
      · exact (text_value_iff (s := c!"C") (by unfold Latin1; decide)).2 ⟨by decide, by decide, by
          rintro ⟨ds, w, h, _⟩; simp at h⟩
      · exact (text_value_iff (s := c!"D") (by unfold Latin1; decide)).2 ⟨by decide, by decide, by
          rintro ⟨ds, w, h, _⟩; simp at h⟩
    by_cases hn : (a.amount.neg && (a.amount.int != 0 || a.amount.frac != [])) = true
    · refine ⟨c!"D", [68], rfl, by simp, rfl, hv _ (Or.inr rfl), by decide, by decide, by decide, by rw [if_pos hn], ?_⟩
      rw [if_pos rfl]
      simp only [Bool.and_eq_true] at hn
      exact negate_abs hn.1
    · refine ⟨c!"C", [67], rfl, by simp, rfl, hv _ (Or.inl rfl), by decide, by decide, by decide, by rw [if_neg hn], ?_⟩
      rw [if_neg (by decide)]
      have : a.amount.neg = false := by
        by_contra hne
        simp only [Bool.not_eq_false] at hne
        rw [hne] at hn
        simp only [Bool.true_and, Bool.or_eq_true, bne_iff_ne, ne_eq, not_or, Decidable.not_not] at hn
        apply h0
        cases hx : a.amount
        simp_all
      rw [← this]
  obtain ⟨i, w, g1, g2, gl, g3, g4, g5, g6, g7, g8⟩ := hind
  have hz : (floatString { a.amount with neg := false }).length ≤ (floatString a.amount).length := by
    rw [floatString_eq, floatString_eq]
    simp [Dec.head]
  let last : Bytes := if withTime then marshalTime t else []
  have hps : [some (DE.alnum (if (a.amount.neg && (a.amount.int != 0 || a.amount.frac != [])) = true then c!"D" else c!"C") 1),
      some (.value { a.amount with neg := false } 15), some (.currency a.currency 3), some (.date t),
      if withTime then some (.time t) else none].map DE.marshalOpt =
      [w, floatString { a.amount with neg := false }, enc (escape a.currency), marshalDate t, last].map .ok := by
    rw [g7]
    cases withTime <;> simp [DE.marshalOpt, DE.marshal, g1, marshalText_ok hc.1, last]
  have hlast : last = [] ∧ withTime = false ∨ last = marshalTime t ∧ withTime = true := by
    cases withTime <;> simp [last]
  have hparts : ∀ p ∈ [w, floatString { a.amount with neg := false }, enc (escape a.currency), marshalDate t, last],
      p = [] ∨ Value p := by
    intro p hp
    simp only [List.mem_cons, List.not_mem_nil, or_false] at hp
    rcases hp with rfl | rfl | rfl | rfl | rfl
    · exact Or.inr g3
    · exact Or.inr (floatString_value hcan)
    · exact part_of_sendable hc
    · exact Or.inr (format8_value _)
    · rcases hlast with h | h
      · exact Or.inl h.1
      · rw [h.1]; exact Or.inr (format6_value _)
  have hne : ∃ p ∈ [w, floatString { a.amount with neg := false }, enc (escape a.currency), marshalDate t, last],
      p ≠ [] := ⟨w, by simp, g2⟩
  have hdc := digits_clean (v := marshalDate t) d2
  have htc := digits_clean (v := marshalTime t) t2
  have hdn : marshalDate t ≠ [] := d2.1
  have htn : marshalTime t ≠ [] := t2.1
  have hsep : (∀ p ∈ [w, floatString { a.amount with neg := false }, enc (escape a.currency), marshalDate t, last],
      43 ∉ p ∧ 39 ∉ p) ↔ NoSep a.currency := by
    have hlc : (43 : Byte) ∉ last ∧ (39 : Byte) ∉ last := by
      rcases hlast with h | h
      · rw [h.1]; simp
      · rw [h.1]; exact ⟨htc.1, htc.2.1⟩
    have hfc := floatString_clean hcan
    simp only [List.forall_mem_cons, noSep_wire hc.1, g4, g5, hlc.1, hlc.2, hfc.1, hfc.2, hdc.1, hdc.2.1]
    simp
  have hll : last.length ≤ 6 := by
    rcases hlast with h | h
    · rw [h.1]; simp
    · rw [h.1]; exact Nat.le_of_eq t1
  have hsize : wireSize [w, floatString { a.amount with neg := false }, enc (escape a.currency), marshalDate t, last] < 2 ^ 63 := by
    have : (marshalDate t).length = 8 := d1
    refine wireSize_five ?_
    rw [gl, this]
    omega
  let out : List Bytes := if withTime then [w, floatString { a.amount with neg := false }, enc (escape a.currency),
    marshalDate t, last] else [w, floatString { a.amount with neg := false }, enc (escape a.currency), marshalDate t]
  have hout : DropTrailing [w, floatString { a.amount with neg := false }, enc (escape a.currency), marshalDate t, last] out := by
    rcases hlast with h | h
    · exact ⟨1, by simp [out, h.2, h.1], by simpa [out, h.2] using hdn⟩
    · exact ⟨0, by simp [out, h.2], by simpa [out, h.2, h.1] using htn⟩
  have hend : ∀ p, out.getLast? = some p → p.getLast? ≠ some 58 := by
    intro p hp
    rcases hlast with h | h
    · simp [out, h.2] at hp; rw [← hp]; exact hdc.2.2
    · simp [out, h.2, h.1] at hp; rw [← hp]; exact htc.2.2
  have hx := C12_extract_iff hps hm hparts hne hout hsize
  have hval : balanceParts out = .ok ⟨a, ⟨t.year, t.month, t.day, 0, 0, 0, 0⟩,
      if withTime then some ⟨0, 1, 1, t.hour, t.min, t.sec, 0⟩ else none⟩ := by
    have e1 := unmarshalFloat_floatString hcan
    have e2 := C10_date_roundtrip t hy.1 hy.2 hd
    have e3 := C10_time_roundtrip t ht
    have e4 := unmarshalText_enc hc.1
    rcases hlast with h | h
    · simp [out, h.2, balanceParts, e1, e2, e4, g6, balanceTime, balanceOf, g8, Outcome.map']
    · simp [out, h.2, h.1, balanceParts, e1, e2, e3, e4, g6, balanceTime, balanceOf, g8, Outcome.map']
  unfold unmarshalBalance
  rw [bind_eq_ok]
  constructor
  · rintro ⟨es, k1, k2⟩
    obtain ⟨rfl, k3, _⟩ := (hx es).1 k1
    rw [hval] at k2
    cases k2
    exact ⟨rfl, hsep.1 k3⟩
  · rintro ⟨rfl, k3⟩
    exact ⟨out, (hx out).2 ⟨rfl, hsep.2 k3, hend⟩, hval⟩

/-- Balances: a debit with time, a credit without. -/
example :
    (balanceDE ⟨⟨true, 1000, b!"5"⟩, c!"EUR"⟩ ⟨2024, 2, 29, 23, 59, 1, 0⟩ true).marshal =
      .ok b!"D:1000,5:EUR:20240229:235901" ∧
    unmarshalBalance b!"D:1000,5:EUR:20240229:235901" =
      .ok ⟨⟨⟨true, 1000, b!"5"⟩, c!"EUR"⟩, ⟨2024, 2, 29, 0, 0, 0, 0⟩, some ⟨0, 1, 1, 23, 59, 1, 0⟩⟩ ∧
    (balanceDE ⟨⟨false, 0, b!"5"⟩, c!"EUR"⟩ ⟨2024, 2, 29, 23, 59, 1, 0⟩ false).marshal = .ok b!"C:0,5:EUR:20240229" ∧
    unmarshalBalance b!"C:0,5:EUR:20240229" = .ok ⟨⟨⟨false, 0, b!"5"⟩, c!"EUR"⟩, ⟨2024, 2, 29, 0, 0, 0, 0⟩, none⟩ :=
  ⟨rfl, by decide +kernel, rfl, by decide +kernel⟩

/-! ## C62: amounts as elements -/

/-- C62: reading an amount the library has written: value and currency come back exactly if the
currency is not empty, does not end in `:` and contains neither `+` nor `'`; otherwise reading
fails. -/
theorem C62_amount {a r : Amount} {m : Bytes} (ha : a.amount.Canonical) (hc : Sendable a.currency)
    (hm : (amountDE a).marshal = .ok m)
    (hl : wireSize [floatString a.amount, enc (escape a.currency)] < 2 ^ 63) :
    unmarshalAmount m = .ok r ↔ r = a ∧ a.currency ≠ [] ∧ a.currency.getLast? ≠ some ':' ∧ NoSep a.currency := by
  have hps : [some (DE.value a.amount 15), some (.currency a.currency 3)].map DE.marshalOpt =
      [floatString a.amount, enc (escape a.currency)].map .ok := by
    simp [DE.marshalOpt, DE.marshal, marshalText_ok hc.1]
  have hfv := floatString_value ha
  have hparts : ∀ p ∈ [floatString a.amount, enc (escape a.currency)], p = [] ∨ Value p := by
    intro p hp
    simp only [List.mem_cons, List.not_mem_nil, or_false] at hp
    rcases hp with rfl | rfl
    · exact Or.inr hfv
    · exact part_of_sendable hc
  have hfn : floatString a.amount ≠ [] := value_ne_nil hfv
  have hne : ∃ p ∈ [floatString a.amount, enc (escape a.currency)], p ≠ [] := ⟨_, by simp, hfn⟩
  have hsep : (∀ p ∈ [floatString a.amount, enc (escape a.currency)], 43 ∉ p ∧ 39 ∉ p) ↔ NoSep a.currency := by
    have := floatString_clean ha
    simp only [List.forall_mem_cons, noSep_wire hc.1, this.1, this.2]
    simp
  unfold unmarshalAmount
  rw [bind_eq_ok]
  by_cases hcn : a.currency = []
  · have hout : DropTrailing [floatString a.amount, enc (escape a.currency)] [floatString a.amount] := by
      refine ⟨1, by rw [hcn]; rfl, ?_⟩
      simpa using hfn
    constructor
    · rintro ⟨es, h1, h2⟩
      obtain ⟨rfl, _⟩ := (C12_extract_iff hps hm hparts hne hout hl es).1 h1
      simp [amountParts] at h2
    · rintro ⟨_, h, _⟩; exact absurd hcn h
  · have hout : DropTrailing [floatString a.amount, enc (escape a.currency)]
        [floatString a.amount, enc (escape a.currency)] := by
      refine ⟨0, by simp, ?_⟩
      simpa using fun h => hcn (enc_escape_nil.1 h)
    have hx := C12_extract_iff hps hm hparts hne hout hl
    have hlast : (∀ p, [floatString a.amount, enc (escape a.currency)].getLast? = some p → p.getLast? ≠ some 58) ↔
        a.currency.getLast? ≠ some ':' := by
      simp [enc_escape_last hc.1]
    have hval : amountParts [floatString a.amount, enc (escape a.currency)] = .ok a := by
      simp [amountParts, (C62_float ha).1, Outcome.map', unmarshalText_enc hc.1]
    constructor
    · rintro ⟨es, h1, h2⟩
      obtain ⟨rfl, h3, h4⟩ := (hx es).1 h1
      rw [hval] at h2
      cases h2
      exact ⟨rfl, hcn, hlast.1 h4, hsep.1 h3⟩
    · rintro ⟨rfl, _, h4, h3⟩
      exact ⟨_, (hx _).2 ⟨rfl, hsep.2 h3, hlast.2 h4⟩, hval⟩

/-- An amount, a negative one, one without currency. -/
example : (amountDE ⟨⟨false, 1234, b!"5"⟩, c!"EUR"⟩).marshal = .ok b!"1234,5:EUR" ∧
    unmarshalAmount b!"1234,5:EUR" = .ok ⟨⟨false, 1234, b!"5"⟩, c!"EUR"⟩ ∧
    unmarshalAmount b!"-7,:USD" = .ok ⟨⟨true, 7, []⟩, c!"USD"⟩ ∧
    (amountDE ⟨⟨false, 1, []⟩, []⟩).marshal = .ok b!"1," ∧ unmarshalAmount b!"1," = .err :=
  ⟨rfl, by decide +kernel, by decide +kernel, rfl, by decide +kernel⟩

/-! ## C59: allowed business transactions -/

/-- C59: an entry that transmits an amount is rejected, whatever else it holds. -/
theorem C59_amount {b : Bytes} {es : List Bytes} (he : extractElements b = .ok es) (h3 : es.getD 3 [] ≠ [])
    (hl : b.length + 1 < 2 ^ 63) : unmarshalBusinessTransaction b = .err := by
  have hm : es.getD 3 [] ∈ es := by
    rw [List.getD_eq_getElem?_getD] at h3 ⊢
    cases h : es[3]? with
    | none => rw [h] at h3; exact absurd rfl h3
    | some x => exact List.mem_of_getElem? h
  obtain ⟨hp, hlen⟩ := extract_sound he _ hm
  have ham : unmarshalAmount (es.getD 3 []) = .err := by
    unfold unmarshalAmount
    rw [extract_part hp (by omega)]
    split <;> rfl
  unfold unmarshalBusinessTransaction
  rw [he]
  simp only [Outcome.bind]
  split
  · rfl
  · unfold businessParts
    have hopt : optField es 3 unmarshalAmount = .err := by
      unfold optField
      rw [if_neg h3, ham]
      rfl
    rw [hopt]
    cases hn : unmarshalNumber (es.getD 1 []) with
    | err => rfl
    | panic => unfold unmarshalNumber at hn; cases hx : atoi (es.getD 1 []) <;> rw [hx] at hn <;> cases hn
    | ok n =>
      have hk : ∃ k, (optField es 2 fun k => .ok (unmarshalText k)) = .ok k := by
        unfold optField
        split
        · exact ⟨_, rfl⟩
        · exact ⟨_, rfl⟩
      obtain ⟨k, hk⟩ := hk
      rw [hk]
      rfl

/-- C59: no accepted entry reports a limit amount. -/
theorem C59_no_amount {b : Bytes} {t : BusinessTransaction} (h : unmarshalBusinessTransaction b = .ok t)
    (hl : b.length + 1 < 2 ^ 63) : ∀ l, t.limit = some l → l.amount = ⟨⟨false, 0, []⟩, []⟩ := by
  intro l hlim
  have h' := h
  unfold unmarshalBusinessTransaction at h
  obtain ⟨es, he, h⟩ := bind_eq_ok.1 h
  have h3 : es.getD 3 [] = [] := by
    by_contra h3
    rw [C59_amount he h3 hl] at h'
    simp at h'
  split at h
  · simp at h
  · unfold businessParts at h
    obtain ⟨n, _, h⟩ := bind_eq_ok.1 h
    obtain ⟨k, _, h⟩ := bind_eq_ok.1 h
    obtain ⟨a, ha, h⟩ := bind_eq_ok.1 h
    unfold optField at ha
    rw [if_pos h3] at ha
    cases ha
    cases hd : optField es 4 unmarshalNumber with
    | err => rw [hd] at h; simp [Outcome.map'] at h
    | panic => rw [hd] at h; simp [Outcome.map'] at h
    | ok d =>
      rw [hd] at h
      simp only [Outcome.map', Outcome.ok.injEq] at h
      rw [← h] at hlim
      simp only [Option.map_eq_some_iff] at hlim
      obtain ⟨x, _, rfl⟩ := hlim
      rfl

/-- What is written for a transaction with a limit; without currency the amount is one part. -/
theorem limited_wire {t : BusinessTransaction} {l : Limit} {m : Bytes} (hl : t.limit = some l) (h1 : Sendable t.id)
    (h2 : Sendable l.kind) (h3 : l.amount.amount.Canonical) (h4 : Sendable l.amount.currency)
    (h5 : l.amount.currency.getLast? ≠ some ':') (hm : (businessTransactionDE t).marshal = .ok m) :
    m = pre 58 ([enc (escape t.id), itoa t.signatures, enc (escape l.kind), floatString l.amount.amount] ++
      if l.amount.currency = [] then [] else [enc (escape l.amount.currency)]) ++ itoa l.days := by
  unfold businessTransactionDE at hm
  rw [hl] at hm
  simp only [List.cons_append, List.nil_append, amountDE, DE.marshal, DE.marshalAll, DE.marshalOpt,
    marshalText_ok h1.1, marshalText_ok h2.1, marshalText_ok h4.1, Outcome.bind, Outcome.map', marshalNumber] at hm
  simp only [Outcome.ok.injEq] at hm
  have hd : (itoa l.days).getLast? ≠ some 58 := Segment.itoa_not_colon _
  have hdv : Value (itoa l.days) := itoa_value _
  have hdn : itoa l.days ≠ [] := value_ne_nil hdv
  have htr : trimRight 58 (itoa l.days) = itoa l.days := trimRight_of_last hd
  have e : ∀ A B C D E : Bytes, join 58 [A, B, C, D, E] = pre 58 [A, B, C, D] ++ E := by
    intro A B C D E; simp [join, pre]
  rw [e, trimRight_prefix _ (by rw [htr]; exact hdn), htr] at hm
  by_cases hc : l.amount.currency = []
  · have ha : trimRight 58 (join 58 [floatString l.amount.amount, enc (escape l.amount.currency)]) =
        floatString l.amount.amount := by
      rw [hc]
      have hfl : (floatString l.amount.amount).getLast? ≠ some 58 := by
        intro h
        have hmem := List.mem_of_getLast? h
        rw [floatString_eq] at hmem
        have hnd : ¬ Digit 58 := by unfold Digit; decide
        simp only [List.mem_append, List.mem_cons] at hmem
        rcases hmem with h | h | h
        · exact dec_head_not hnd (by decide) h
        · exact absurd h (by decide)
        · exact hnd (h3.1 _ h)
      have : join 58 [floatString l.amount.amount, enc (escape [])] = floatString l.amount.amount ++ List.replicate 1 58 := rfl
      rw [this, trimRight_replicate, trimRight_of_last hfl]
    rw [ha] at hm
    rw [← hm, if_pos hc]
    simp
  · have ha : trimRight 58 (join 58 [floatString l.amount.amount, enc (escape l.amount.currency)]) =
        floatString l.amount.amount ++ 58 :: enc (escape l.amount.currency) := by
      have hne : enc (escape l.amount.currency) ≠ [] := fun h => hc (enc_escape_nil.1 h)
      have : join 58 [floatString l.amount.amount, enc (escape l.amount.currency)] =
        floatString l.amount.amount ++ 58 :: enc (escape l.amount.currency) := rfl
      rw [this]
      apply trimRight_of_last
      rw [List.getLast?_append, List.getLast?_cons]
      intro h
      have hz := mt (enc_escape_last h4.1).1 h5
      cases hy : (enc (escape l.amount.currency)).getLast? with
      | none => exact hne (List.getLast?_eq_none_iff.1 hy)
      | some z => rw [hy] at h hz; simp at h; exact hz (by rw [h])
    rw [ha] at hm
    rw [← hm, if_neg hc]
    simp [pre]

theorem limited_parts {t : BusinessTransaction} {l : Limit} (h1 : Sendable t.id) (h2 : Sendable l.kind)
    (h3 : l.amount.amount.Canonical) (h4 : Sendable l.amount.currency) :
    ∀ q ∈ [enc (escape t.id), itoa t.signatures, enc (escape l.kind), floatString l.amount.amount] ++
      (if l.amount.currency = [] then [] else [enc (escape l.amount.currency)]), Part q := by
  intro q hq
  simp only [List.mem_append, List.mem_cons, List.not_mem_nil, or_false] at hq
  rcases hq with (rfl | rfl | rfl | rfl) | hq
  · exact part_of_sendable h1
  · exact Or.inr (itoa_value _)
  · exact part_of_sendable h2
  · exact Or.inr (floatString_value h3)
  · split at hq
    · cases hq
    · rw [List.mem_singleton.1 hq]; exact part_of_sendable h4

/-- C59: what the library itself writes for a transaction with a limit, it rejects. -/
theorem C59_limit {t : BusinessTransaction} {l : Limit} {m : Bytes} (hl : t.limit = some l) (h1 : Sendable t.id)
    (h2 : Sendable l.kind) (h3 : l.amount.amount.Canonical) (h4 : Sendable l.amount.currency)
    (h5 : l.amount.currency.getLast? ≠ some ':') (hm : (businessTransactionDE t).marshal = .ok m)
    (hlen : m.length + 1 < 2 ^ 63) : unmarshalBusinessTransaction m = .err := by
  have hw := limited_wire hl h1 h2 h3 h4 h5 hm
  have hp1 := limited_parts (t := t) h1 h2 h3 h4
  have h3' : ([enc (escape t.id), itoa t.signatures, enc (escape l.kind), floatString l.amount.amount] ++
      (if l.amount.currency = [] then [] else [enc (escape l.amount.currency)]) ++ [itoa l.days]).getD 3 [] ≠ [] := by
    simpa using value_ne_nil (floatString_value h3)
  have hpn : itoa l.days ≠ [] := value_ne_nil (itoa_value _)
  generalize [enc (escape t.id), itoa t.signatures, enc (escape l.kind), floatString l.amount.amount] ++
      (if l.amount.currency = [] then [] else [enc (escape l.amount.currency)]) = init at hw hp1 h3'
  subst hw
  have hx := extract_parts hp1 (Or.inr (itoa_value l.days)) (by omega)
  by_cases hs : 43 ∈ pre 58 init ++ itoa l.days ∨ 39 ∈ pre 58 init ++ itoa l.days
  · rw [if_pos hs, if_neg hpn] at hx
    unfold unmarshalBusinessTransaction
    rw [hx]
    rfl
  · rw [if_neg hs] at hx
    exact C59_amount hx h3' hlen

/-- C59: entries without a limit are understood, unless the ID contains `+` or `'`. -/
theorem C59_without {t r : BusinessTransaction} {m : Bytes} (hl : t.limit = none) (h1 : Sendable t.id)
    (hn : IsInt t.signatures) (hm : (businessTransactionDE t).marshal = .ok m) (hlen : m.length < 2 ^ 63) :
    unmarshalBusinessTransaction m = .ok r ↔ r = t ∧ NoSep t.id := by
  have hd : (itoa t.signatures).getLast? ≠ some 58 := Segment.itoa_not_colon _
  have hdn : itoa t.signatures ≠ [] := Segment.itoa_ne_nil _
  have htr : trimRight 58 (itoa t.signatures) = itoa t.signatures := trimRight_of_last hd
  have hw : m = pre 58 [enc (escape t.id)] ++ itoa t.signatures := by
    unfold businessTransactionDE at hm
    rw [hl] at hm
    simp only [List.cons_append, List.nil_append, DE.marshal, DE.marshalAll, DE.marshalOpt,
      marshalText_ok h1.1, Outcome.bind, Outcome.map', marshalNumber, Outcome.ok.injEq] at hm
    rw [← hm]
    have := trim_join (c := 58) (out := [enc (escape t.id)]) (p := itoa t.signatures) (k := 3) (by rw [htr]; exact hdn)
    rw [htr] at this
    exact this
  subst hw
  have hx := extract_parts (init := [enc (escape t.id)]) (p := itoa t.signatures)
    (by intro q hq; rw [List.mem_singleton.1 hq]; exact part_of_sendable h1) (Or.inr (itoa_value _)) hlen
  have hni : ∀ c : Byte, ¬ Digit c → c ≠ 45 → c ∉ itoa t.signatures := by
    intro c hc h45 hm
    unfold itoa at hm
    split at hm
    · simp only [List.mem_cons] at hm
      rcases hm with h | h
      · exact h45 h
      · exact hc ((natDec_digits _).2 _ h)
    · exact hc ((natDec_digits _).2 _ hm)
  have n43 := hni 43 (by unfold Digit; decide) (by decide)
  have n39 := hni 39 (by unfold Digit; decide) (by decide)
  have hs : (43 ∈ pre 58 [enc (escape t.id)] ++ itoa t.signatures ∨ 39 ∈ pre 58 [enc (escape t.id)] ++ itoa t.signatures) ↔
      ¬ NoSep t.id := by
    rw [← noSep_wire h1.1]
    simp only [pre, List.flatMap_cons, List.flatMap_nil, List.append_nil, List.mem_append, List.mem_singleton, n43, n39]
    simp only [or_false, show ((43 : Byte) = 58) = False by decide, show ((39 : Byte) = 58) = False by decide]
    tauto
  unfold unmarshalBusinessTransaction
  rw [hx]
  by_cases hsep : NoSep t.id
  · rw [if_neg (fun h => hs.1 h hsep)]
    have hat : unmarshalNumber (itoa t.signatures) = .ok t.signatures := C09_number _ hn
    cases t
    subst hl
    simp [businessParts, optField, hat, unmarshalText_enc h1.1, Outcome.map', hsep]
    exact eq_comm
  · rw [if_pos (hs.2 hsep), if_neg hdn]
    simp [hsep]

/-- An entry without limit, with a time limit and without amount, and with an amount. -/
example :
    unmarshalBusinessTransaction b!"HKUEB:1" = .ok ⟨c!"HKUEB", 1, none⟩ ∧
    unmarshalBusinessTransaction b!"HKUEB:1:Z::7" = .ok ⟨c!"HKUEB", 1, some ⟨c!"Z", zeroAmount, 7⟩⟩ ∧
    (businessTransactionDE ⟨c!"HKUEB", 1, some ⟨c!"T", ⟨⟨false, 1000, []⟩, c!"EUR"⟩, 7⟩⟩).marshal =
      .ok b!"HKUEB:1:T:1000,:EUR:7" ∧
    extractElements b!"HKUEB:1:T:1000,:EUR:7" = .ok [b!"HKUEB", b!"1", b!"T", b!"1000,", b!"EUR", b!"7"] ∧
    unmarshalBusinessTransaction b!"HKUEB:1:T:1000,:EUR:7" = .err :=
  ⟨by decide +kernel, by decide +kernel, rfl, by decide +kernel, by decide +kernel⟩

/-! ## C64: encryption header elements -/

/-- C64: the encryption algorithm the library writes, for whatever key, is rejected by
its own decoder. -/
theorem C64_rejected {keyParam : Str} {key m : Bytes} (h : Sendable keyParam) (old : EncryptionAlgorithm)
    (hm : (encryptionAlgorithm keyParam key).marshal = .ok m) (hl : m.length < 2 ^ 63) :
    unmarshalEncryptionAlgorithm old m = .err := by
  have hv : ∀ s : Str, s ∈ [c!"2", c!"13", c!"1"] → Sendable s := by
    intro s hs
    simp only [List.mem_cons, List.not_mem_nil, or_false] at hs
    have hmf : ∀ s : Str, ',' ∉ s → ¬ LikeMalformedFloat s := by
      rintro s hs ⟨ds, w, rfl, _⟩
      exact hs (by simp)
    rcases hs with rfl | rfl | rfl <;> exact ⟨by unfold Latin1; decide, by decide, hmf _ (by decide)⟩
  have h2 := hv c!"2" (by simp)
  have h13 := hv c!"13" (by simp)
  have h1 := hv c!"1" (by simp)
  have hw : m = pre 58 [b!"2", b!"2", b!"13", marshalBinary key, enc (escape keyParam)] ++ b!"1" := by
    unfold encryptionAlgorithm at hm
    simp only [DE.marshal, DE.marshalAll, DE.marshalOpt, marshalText_ok h2.1, marshalText_ok h13.1, marshalText_ok h1.1,
      marshalText_ok h.1, Outcome.bind, Outcome.map', Outcome.ok.injEq] at hm
    rw [← hm]
    exact trim_join (c := 58) (out := [b!"2", b!"2", b!"13", marshalBinary key, enc (escape keyParam)]) (p := b!"1")
      (k := 1) (by decide)
  subst hw
  have hx := extract_parts (init := [b!"2", b!"2", b!"13", marshalBinary key, enc (escape keyParam)]) (p := b!"1") (by
    intro q hq
    simp only [List.mem_cons, List.not_mem_nil, or_false] at hq
    rcases hq with rfl | rfl | rfl | rfl | rfl
    · exact part_of_sendable h2
    · exact part_of_sendable h2
    · exact part_of_sendable h13
    · exact Or.inr (marshalBinary_value _)
    · exact part_of_sendable h) (part_of_sendable h1) hl
  unfold unmarshalEncryptionAlgorithm
  rw [hx]
  by_cases hs : 43 ∈ pre 58 [b!"2", b!"2", b!"13", marshalBinary key, enc (escape keyParam)] ++ b!"1" ∨
      39 ∈ pre 58 [b!"2", b!"2", b!"13", marshalBinary key, enc (escape keyParam)] ++ b!"1"
  · rw [if_pos hs, if_neg (by decide)]; rfl
  · rw [if_neg hs]; rfl

/-- C64: the element in every PIN/TAN encryption header, in particular. -/
theorem C64_pintan (old : EncryptionAlgorithm) : ∃ m, Message.pinTanEncryptionAlgorithm.marshal = .ok m ∧
    unmarshalEncryptionAlgorithm old m = .err := by
  refine ⟨b!"2:2:13:@8@\x00\x00\x00\x00\x00\x00\x00\x00:5:1", rfl, ?_⟩
  refine C64_rejected (keyParam := c!"5") (key := List.replicate 8 0) ⟨by unfold Latin1; decide, by decide, ?_⟩ old rfl (by decide)
  rintro ⟨ds, w, h, _⟩
  simp at h

/-- C64: an element the decoder accepts has seven fields or more, and the receiver
still holds what it held before. -/
theorem C64_dropped {old new : EncryptionAlgorithm} {b : Bytes} (h : unmarshalEncryptionAlgorithm old b = .ok new) :
    new = old ∧ ∃ es, extractElements b = .ok es ∧ 7 ≤ es.length := by
  unfold unmarshalEncryptionAlgorithm at h
  obtain ⟨es, he, h⟩ := bind_eq_ok.1 h
  split at h
  · simp at h
  · rename_i hlen
    obtain ⟨_, _, h⟩ := bind_eq_ok.1 h
    refine ⟨?_, es, he, by omega⟩
    cases hx : optField es 6 unmarshalBinary <;> rw [hx] at h <;> simp [Outcome.map'] at h
    exact h.symm

/-- C64: the security profile the library writes is accepted, but the receiver still
holds what it held before. -/
theorem C64_profile (method : Int) (hn : IsInt method) (old : Option (Str × Int)) :
    ∃ m, (Message.securityProfile method).marshal = .ok m ∧
      (m.length < 2 ^ 63 → unmarshalSecurityProfile old m = .ok old) := by
  have hd : (itoa method).getLast? ≠ some 58 := Segment.itoa_not_colon _
  have hdn : itoa method ≠ [] := Segment.itoa_ne_nil _
  have htr : trimRight 58 (itoa method) = itoa method := trimRight_of_last hd
  have hs : Sendable c!"PIN" := by
    refine ⟨by unfold Latin1; decide, by decide, ?_⟩
    rintro ⟨ds, w, h, _⟩
    simp at h
  refine ⟨pre 58 [b!"PIN"] ++ itoa method, ?_, ?_⟩
  · unfold Message.securityProfile
    simp only [DE.marshal, DE.marshalAll, DE.marshalOpt, marshalText_ok hs.1, Outcome.bind, Outcome.map', marshalNumber,
      Outcome.ok.injEq]
    have := trim_join (c := 58) (out := [b!"PIN"]) (p := itoa method) (k := 0) (by rw [htr]; exact hdn)
    rw [htr] at this
    exact this
  · intro hl
    have hx := extract_parts (init := [b!"PIN"]) (p := itoa method)
      (by intro q hq; rw [List.mem_singleton.1 hq]; exact part_of_sendable hs) (Or.inr (itoa_value _)) hl
    have hni : ∀ c : Byte, ¬ Digit c → c ≠ 45 → c ∉ itoa method := by
      intro c hc h45 hm
      unfold itoa at hm
      split at hm
      · simp only [List.mem_cons] at hm
        rcases hm with h | h
        · exact h45 h
        · exact hc ((natDec_digits _).2 _ h)
      · exact hc ((natDec_digits _).2 _ hm)
    have n43 := hni 43 (by unfold Digit; decide) (by decide)
    have n39 := hni 39 (by unfold Digit; decide) (by decide)
    unfold unmarshalSecurityProfile
    rw [hx, if_neg (by simp [pre, n43, n39])]
    have hat : unmarshalNumber (itoa method) = .ok method := C09_number _ hn
    simp [Outcome.bind, hat, Outcome.map']

/-- The written algorithm with the missing seventh field added by hand is accepted, and
nothing is stored. -/
example : unmarshalEncryptionAlgorithm ⟨none, none, none, none, none, none, none⟩ b!"2:2:13:@3@abc:5:1:" =
    .ok ⟨none, none, none, none, none, none, none⟩ ∧
    unmarshalSecurityProfile none b!"PIN:2" = .ok none := by decide +kernel

end Verif.Element

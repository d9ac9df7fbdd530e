import Verif.Bank.WireLemmas

/-
The values of single fields, read back.
-/

namespace Verif.Bank

open GoLib Charset Element Element.Spec Segment Segment.Spec Message Verif.Token.Spec

theorem field_one {α : Type} {p : Bytes} {f : Bytes → Outcome α} {a : α} (hp : p ≠ []) (h : f p = .ok a) :
    field [p] 0 f = .ok (some a) := by
  simp [field, hp, h, Outcome.map']

theorem carries_none {α : Type} (f : Bytes → Outcome α) : Carries none f none := by
  intro p hp _
  simp only [DE.marshalOpt, Outcome.ok.injEq] at hp
  subst hp
  rfl

/-- A field with an element whose bytes are not empty. -/
theorem carries_some {α : Type} {e : DE} {f : Bytes → Outcome α} {a : α}
    (h : ∀ p, e.marshal = .ok p → p.length < 2 ^ 62 → p ≠ [] ∧ f p = .ok a) : Carries (some e) f (some a) := by
  intro p hp hl
  obtain ⟨h1, h2⟩ := h p hp hl
  exact field_one h1 h2

theorem marshalText_latin1 {s : Str} {p : Bytes} (h : marshalText s = .ok p) : Latin1 s ∧ p = enc (escape s) := by
  by_cases hl : Latin1 s
  · rw [marshalText_ok hl] at h
    exact ⟨hl, by simpa using h.symm⟩
  · unfold marshalText at h
    rw [toISO_panic fun hx => hl (escape_latin1.1 hx)] at h
    simp at h

/-- Texts: an empty one is not there. -/
theorem carries_text {mk : Str → DE} (hmk : ∀ s, (mk s).marshal = marshalText s) (o : Option Str) :
    Carries (o.map mk) text (o.filter (· ≠ [])) := by
  cases o with
  | none => exact carries_none _
  | some s =>
    intro p hp _
    simp only [Option.map_some, DE.marshalOpt, hmk] at hp
    obtain ⟨hl, rfl⟩ := marshalText_latin1 hp
    by_cases hs : s = []
    · subst hs; rfl
    · rw [field_one (a := s) (fun h => hs (enc_escape_nil.1 h)) (by unfold text; rw [unmarshalText_enc hl])]
      simp [Option.filter, hs]

theorem carries_number {mk : Int → DE} (hmk : ∀ n, (mk n).marshal = .ok (itoa n)) {o : Option Int}
    (h : ∀ n, o = some n → IsInt n) : Carries (o.map mk) unmarshalNumber o := by
  cases o with
  | none => exact carries_none _
  | some n =>
    refine carries_some fun p hp _ => ?_
    rw [hmk] at hp
    simp only [Outcome.ok.injEq] at hp
    subst hp
    exact ⟨itoa_ne_nil n, C09_number n (h n rfl)⟩

theorem carries_bool (o : Option Bool) : Carries (o.map .boolean) unmarshalBool o := by
  cases o with
  | none => exact carries_none _
  | some v =>
    refine carries_some fun p hp _ => ?_
    simp only [DE.marshal, Outcome.ok.injEq] at hp
    subst hp
    exact ⟨by cases v <;> simp [marshalBool], (C11_bool _ v).2 rfl⟩

/-- A date of the years 0 to 9999. -/
def Day (t : Time.Civil) : Prop := 0 ≤ t.year ∧ t.year ≤ 9999 ∧ ExistingDate t.year t.month t.day

/-- Midnight of a day. -/
def midnight (t : Time.Civil) : Time.Civil := ⟨t.year, t.month, t.day, 0, 0, 0, 0⟩

theorem carries_date {o : Option Time.Civil} (h : ∀ t, o = some t → Day t) :
    Carries (o.map .date) unmarshalDate (o.map midnight) := by
  cases o with
  | none => exact carries_none _
  | some t =>
    obtain ⟨h1, h2, h3⟩ := h t rfl
    refine carries_some fun p hp _ => ?_
    simp only [DE.marshal, Outcome.ok.injEq] at hp
    subst hp
    refine ⟨fun he => ?_, C10_date_roundtrip t h1 h2 h3⟩
    have := (format8_spec h1 h2 h3).1
    unfold marshalDate at he
    rw [he] at this
    simp at this

theorem carries_time {o : Option Time.Civil} (h : ∀ t, o = some t → TimeOfDay t.hour t.min t.sec) :
    Carries (o.map .time) unmarshalTime (o.map fun t => ⟨0, 1, 1, t.hour, t.min, t.sec, 0⟩) := by
  cases o with
  | none => exact carries_none _
  | some t =>
    refine carries_some fun p hp _ => ?_
    simp only [DE.marshal, Outcome.ok.injEq] at hp
    subst hp
    refine ⟨fun he => ?_, C10_time_roundtrip t (h t rfl)⟩
    have := (format6_spec (h t rfl)).1
    unfold marshalTime at he
    rw [he] at this
    simp at this

theorem carries_binary {o : Option Bytes} (max : Int) (h : ∀ d, o = some d → d.length ≤ 2 ^ 48) :
    Carries (o.map (.binary · max)) unmarshalBinary o := by
  cases o with
  | none => exact carries_none _
  | some d =>
    refine carries_some fun p hp _ => ?_
    simp only [DE.marshal, Outcome.ok.injEq] at hp
    subst hp
    exact ⟨by simp [marshalBinary], C07_roundtrip d (h d rfl)⟩

/-- The bytes of a group whose last part is there and does not end in `:`. -/
theorem group_bytes {es : List (Option DE)} {n : Nat} {ps : List Bytes} {l p : Bytes}
    (hps : es.map DE.marshalOpt = ps.map .ok) (hl : ps.getLast? = some l) (h58 : l.getLast? ≠ some 58)
    (hne : l ≠ []) (hm : (DE.group n es).marshal = .ok p) :
    p = join 58 ps ∧ wireSize ps = p.length + 1 := by
  have hm' : trimRight 58 (join 58 ps) = p := by
    unfold DE.marshal at hm
    rw [marshalAll_ok.2 hps] at hm
    simpa [Outcome.map'] using hm
  obtain ⟨init, rfl⟩ : ∃ init, ps = init ++ [l] := by
    rcases List.eq_nil_or_concat ps with rfl | ⟨i, x, rfl⟩
    · simp at hl
    · simp at hl; exact ⟨i, by simp [hl]⟩
  have hj : join 58 (init ++ [l]) = pre 58 init ++ l := join_snoc _ _ _
  have ht : trimRight 58 (join 58 (init ++ [l])) = join 58 (init ++ [l]) := by
    apply trimRight_of_last
    rw [hj, List.getLast?_append]
    cases hx : l.getLast? with
    | none => exact absurd (List.getLast?_eq_none_iff.1 hx) hne
    | some x => rw [hx] at h58; simpa using h58
  rw [ht] at hm'
  refine ⟨hm'.symm, ?_⟩
  rw [← hm', hj, List.length_append, wireSize_pre]
  simp [wireSize]
  omega

/-- Amounts that survive the wire (C62). -/
def GoodAmount (a : Amount) : Prop :=
  a.amount.Canonical ∧ Sendable a.currency ∧ a.currency ≠ [] ∧ a.currency.getLast? ≠ some ':' ∧ NoSep a.currency

theorem carries_amount {o : Option Amount} (h : ∀ a, o = some a → GoodAmount a) :
    Carries (o.map amountDE) unmarshalAmount o := by
  cases o with
  | none => exact carries_none _
  | some a =>
    obtain ⟨h1, h2, h3, h4, h5⟩ := h a rfl
    refine carries_some fun p hp hl => ?_
    have hps : [some (DE.value a.amount 15), some (.currency a.currency 3)].map DE.marshalOpt =
        [floatString a.amount, enc (escape a.currency)].map .ok := by
      simp [DE.marshalOpt, DE.marshal, marshalText_ok h2.1]
    obtain ⟨e, hw⟩ := group_bytes (l := enc (escape a.currency)) hps rfl (by rwa [ne_eq, enc_escape_last h2.1]) (fun h => h3 (enc_escape_nil.1 h)) hp
    refine ⟨?_, (C62_amount h1 h2 hp (by omega)).2 ⟨rfl, h3, h4, h5⟩⟩
    rw [e]
    simp [join]

/-- Account connections that survive the wire (C60). -/
def GoodConnection (c : AccountConnection) : Prop :=
  Sendable c.accountID ∧ Sendable c.sub ∧ Sendable c.bankID ∧ IsInt c.country ∧ c.bankID ≠ [] ∧
    ∀ s ∈ [c.accountID, c.sub, c.bankID], ∀ x ∈ s, ¬ Special x

theorem carries_connection {o : Option AccountConnection} (h : ∀ c, o = some c → GoodConnection c) :
    Carries (o.map accountConnectionDE) unmarshalAccountConnection o := by
  cases o with
  | none => exact carries_none _
  | some c =>
    obtain ⟨h1, h2, h3, h4, h5, h6⟩ := h c rfl
    refine carries_some fun p hp hl => ?_
    have hps : [some (DE.identification c.accountID 30), some (.identification c.sub 30),
        some (.countryCode c.country 3), some (.alnum c.bankID 30)].map DE.marshalOpt =
        [enc (escape c.accountID), enc (escape c.sub), zeroPad 3 c.country, enc (escape c.bankID)].map .ok := by
      simp [DE.marshalOpt, DE.marshal, marshalText_ok h1.1, marshalText_ok h2.1, marshalText_ok h3.1, marshalDigit]
    have hlast : c.bankID.getLast? ≠ some ':' := fun hx =>
      h6 c.bankID (by simp) _ (List.mem_of_getLast? hx) (by decide)
    obtain ⟨e, hw⟩ := group_bytes (l := enc (escape c.bankID)) hps rfl (by rwa [ne_eq, enc_escape_last h3.1])
      (fun h => h5 (enc_escape_nil.1 h)) hp
    refine ⟨?_, (C60_roundtrip h1 h2 h3 h4 hp (by omega)).2 ⟨h5, h6⟩⟩
    rw [e]
    simp [join]

/-- Balances that survive the wire (C71). -/
def GoodBalance (a : Amount) (t : Time.Civil) : Prop :=
  a.amount.Canonical ∧ a.amount.NotNegZero ∧ Sendable a.currency ∧ NoSep a.currency ∧ Day t ∧
    TimeOfDay t.hour t.min t.sec

/-- The balance as it is read. -/
def balanceRead (a : Amount) (t : Time.Civil) (withTime : Bool) : Balance :=
  ⟨a, midnight t, if withTime then some ⟨0, 1, 1, t.hour, t.min, t.sec, 0⟩ else none⟩

theorem carries_balance {o : Option (Amount × Time.Civil × Bool)} (h : ∀ x, o = some x → GoodBalance x.1 x.2.1) :
    Carries (o.map fun x => balanceDE x.1 x.2.1 x.2.2) unmarshalBalance (o.map fun x => balanceRead x.1 x.2.1 x.2.2) := by
  cases o with
  | none => exact carries_none _
  | some x =>
    obtain ⟨a, t, w⟩ := x
    have hx := h _ rfl
    dsimp only at hx
    obtain ⟨h1, h2, h3, h4, h5, h6⟩ := hx
    refine carries_some fun p hp hl => ?_
    dsimp only at hp
    obtain ⟨d1, d2, _⟩ := format8_spec h5.1 h5.2.1 h5.2.2
    obtain ⟨t1, t2, _⟩ := format6_spec h6
    have key : p ≠ [] ∧ (floatString { a.amount with neg := false }).length + (enc (escape a.currency)).length + 1 ≤ p.length := by
      have hdl : ∀ v : Bytes, DigitString v → trimRight 58 v = v ∧ v ≠ [] := by
        intro v hv
        refine ⟨trimRight_of_last fun hx => ?_, hv.1⟩
        have := hv.2 _ (List.mem_of_getLast? hx)
        simp [Digit] at this
      obtain ⟨i, hi⟩ : ∃ i : Bytes, marshalText (if (a.amount.neg && (a.amount.int != 0 || a.amount.frac != [])) = true
          then c!"D" else c!"C") = .ok i := by
        split
        · exact ⟨_, rfl⟩
        · exact ⟨_, rfl⟩
      unfold balanceDE at hp
      simp only [DE.marshal, DE.marshalAll, DE.marshalOpt, hi, marshalText_ok h3.1, Outcome.bind, marshalDate] at hp
      cases w with
      | false =>
        simp only [Bool.false_eq_true, if_false, DE.marshalOpt, Outcome.map', Outcome.ok.injEq] at hp
        have := trim_join (c := 58) (out := [i, floatString { a.amount with neg := false }, enc (escape a.currency)])
          (p := Time.format8 t) (k := 1) (by rw [(hdl _ d2).1]; exact (hdl _ d2).2)
        simp only [List.cons_append, List.nil_append, List.replicate_one] at this
        rw [this, (hdl _ d2).1] at hp
        rw [← hp]
        refine ⟨by simp [pre], ?_⟩
        simp [pre]
        omega
      | true =>
        simp only [if_true, DE.marshalOpt, DE.marshal, marshalTime, Outcome.map', Outcome.ok.injEq] at hp
        have := trim_join (c := 58) (out := [i, floatString { a.amount with neg := false }, enc (escape a.currency),
          Time.format8 t]) (p := Time.format6 t) (k := 0) (by rw [(hdl _ t2).1]; exact (hdl _ t2).2)
        simp only [List.cons_append, List.nil_append, List.replicate_zero] at this
        rw [this, (hdl _ t2).1] at hp
        rw [← hp]
        refine ⟨by simp [pre], ?_⟩
        simp [pre]
        omega
    have hfl : (floatString a.amount).length ≤ (floatString { a.amount with neg := false }).length + 1 := by
      rw [floatString_eq, floatString_eq]
      unfold Dec.head
      cases a.amount.neg <;> simp
    exact ⟨key.1, (C71_reads h1 h2 h3 ⟨h5.1, h5.2.1⟩ h5.2.2 h6 hp (by omega)).2 ⟨rfl, h4⟩⟩

/-! ## International connections -/

/-- Reading an international connection and asking for its value is what
`unmarshalInternational` describes. -/
theorem readInternational_val (b : Bytes) :
    (readInternational b).bind ReadInternational.val = unmarshalInternational b := by
  unfold readInternational unmarshalInternational
  cases Element.extractElements b with
  | err => rfl
  | panic => rfl
  | ok es =>
    simp only [Outcome.bind]
    unfold readInternationalParts internationalParts
    by_cases h : es = []
    · simp [h]
    · rw [if_neg h, if_neg h]
      by_cases h4 : es.getD 4 [] = []
      · simp only [h4, if_true]
        rfl
      · simp only [h4, if_false]
        cases unmarshalBankIdentification (join 58 (es.drop 4)) with
        | err => rfl
        | panic => rfl
        | ok r =>
          obtain ⟨n, id⟩ := r
          cases n <;> rfl

/-- International connections that survive the wire (C70). -/
def GoodInternational (c : InternationalConnection) : Prop :=
  Sendable c.iban ∧ Sendable c.bic ∧ Sendable c.accountID ∧ Sendable c.sub ∧ Sendable c.bankID ∧ IsInt c.country ∧
    c.bankID ≠ [] ∧ (∀ x ∈ c.bankID, ¬ Special x) ∧ ∀ s ∈ [c.iban, c.bic, c.accountID, c.sub], NoSep s

theorem carries_international {c : InternationalConnection} (h : GoodInternational c) :
    ∃ r, ReadInternational.val r = .ok c ∧ ∀ p, (internationalDE c).marshal = .ok p → p.length < 2 ^ 62 →
      field [p] 0 readInternational = .ok (some r) := by
  obtain ⟨h1, h2, h3, h4, h5, h6, h7, h8, h9⟩ := h
  refine ⟨⟨c.iban, c.bic, c.accountID, c.sub, some (some c.country, c.bankID)⟩, rfl, ?_⟩
  intro p hp hl
  have hflat := international_flat h1.1 h2.1 h3.1 h4.1 h5.1 hp
  have hps : [some (DE.alnum c.iban 34), some (.alnum c.bic 11), some (.identification c.accountID 30),
      some (.identification c.sub 30), some (.countryCode c.country 3), some (.alnum c.bankID 30)].map DE.marshalOpt =
      (internationalWire c).map .ok := by
    simp [internationalWire, DE.marshalOpt, DE.marshal, marshalText_ok h1.1, marshalText_ok h2.1, marshalText_ok h3.1,
      marshalText_ok h4.1, marshalText_ok h5.1, marshalDigit]
  have hlast : c.bankID.getLast? ≠ some ':' := fun hx => h8 _ (List.mem_of_getLast? hx) (by decide)
  obtain ⟨e, hw⟩ := group_bytes (l := enc (escape c.bankID)) hps rfl (by rwa [ne_eq, enc_escape_last h5.1])
    (fun h => h7 (enc_escape_nil.1 h)) hflat
  have hu := (C70_roundtrip h1 h2 h3 h4 h5 h6 hp (by omega)).2 ⟨h7, h8, h9⟩
  rw [← readInternational_val] at hu
  refine field_one (by rw [e]; simp [internationalWire, join]) ?_
  cases hr : readInternational p with
  | err => rw [hr] at hu; simp at hu
  | panic => rw [hr] at hu; simp at hu
  | ok r =>
    rw [hr] at hu
    obtain ⟨i, b, a, s, bank⟩ := r
    have hu' : ReadInternational.val ⟨i, b, a, s, bank⟩ = .ok c := hu
    unfold ReadInternational.val at hu'
    match bank with
    | some (some n, id) =>
      simp only [Outcome.ok.injEq] at hu'
      subst hu'
      rfl
    | none =>
      simp only [Outcome.ok.injEq] at hu'
      subst hu'
      exact absurd rfl h7

/-! ## Conditions on literals -/

theorem sendable_of {s : Str} (h : (s.all fun c => decide (c.toNat ≤ 255) && c != '\x00') = true)
    (h0 : s.head? ≠ some '0') : Sendable s := by
  rw [List.all_eq_true] at h
  refine ⟨fun c hc => ?_, fun hc => ?_, not_malformed_head h0⟩
  · have := h c hc
    simp only [Bool.and_eq_true, decide_eq_true_eq] at this
    exact this.1
  · have := h _ hc
    simp at this

theorem plainText_of {s : Str} (h : '\x00' ∉ s) (h0 : s.head? ≠ some '0') (h1 : s.getLast? ≠ some ':')
    (h2 : s.getLast? ≠ some '+') : PlainText s := ⟨h, not_malformed_head h0, h1, h2⟩

/-- Segments all of whose texts are plain. -/
theorem written_of_plain {s : Seg} {m : Bytes} (hm : s.marshal = .ok m) (hid : s.header.id.head? ≠ some '0')
    (hid' : '\x00' ∉ s.header.id ∧ '+' ∉ s.header.id ∧ '\'' ∉ s.header.id) (hp : IsInt s.header.position)
    (hv : IsInt s.header.version) (hr : ∀ r, s.header.ref = some r → IsInt r) (hs : ∀ e, some e ∈ s.elements → Plain e)
    (hl : m.length < 2 ^ 62) : Written s m where
  marshal := hm
  id := ⟨⟨hid'.1, not_malformed_head hid⟩, hid'.2⟩
  position := hp
  version := hv
  ref := hr
  sound := fun e he => plain_sound e (hs e he)
  notCut := notCut_of_last (Or.inr rfl) (plains_last _ (plainAll_iff.2 hs))
  size := hl

end Verif.Bank

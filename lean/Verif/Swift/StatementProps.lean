import Verif.Swift.StatementSpec
import Verif.Swift.MessageProps
import Verif.Swift.FieldProps
import Verif.Domain.Props

/-
Property C100: whole statements, from what the bank wrote to the transactions reported.
-/

namespace Verif.Swift

open GoLib Charset Time
open Swift.Spec
open Token.Spec (Digit DigitString value)
open Element.Spec (ExistingDate)

/-! ## What is reported -/

/-- Midnight of a day. -/
def Spec.Day.civil (c : Int) (d : Day) : Civil := ⟨c + d.year, d.month, d.day, 0, 0, 0, 0⟩

/-- The day an entry of the year `y` with a value date in month `v` is reported to be booked on:
the year is the next one if the months differ by more than one. -/
def bookedOn (y : Int) (v m d : Nat) : Civil :=
  if v ≤ m + 1 ∧ m ≤ v + 1 then ⟨y, m, d, 0, 0, 0, 0⟩
  else if m = 2 ∧ d = 29 then ⟨y + 1, 3, 1, 0, 0, 0, 0⟩ else ⟨y + 1, m, d, 0, 0, 0, 0⟩

/-- Whether an entry is reported with the negative amount: with a booking date, if its mark is
`D`; without one, if the second letter after the value date is `D`. -/
def Negative (e : Entry) : Prop := if e.booking.isSome then e.mark = b!"D" else (e.mark ++ e.kind)[1]? = some 68

instance (e : Entry) : Decidable (Negative e) := by unfold Negative; infer_instance

/-- The sub-fields of an entry. -/
def Spec.Entry.fields (e : Entry) : List (Bytes × Bytes) := (e.description.map (·.fields)).getD []

/-- How an entry of a statement in the century that begins with the year `c` is reported. -/
structure Reported (L : Lib) (c : Int) (s : Statement) (e : Entry) (x : Transaction L.F) : Prop where
  bankCode : x.bankCode = s.bank
  accountNumber : x.accountNumber = s.account
  amount : ∃ a, L.parseFloat (e.whole ++ b!"." ++ e.frac) = some a ∧ x.amount = if Negative e then L.neg a else a
  currency : x.currency = s.opening.currency
  valutaDate : x.valutaDate = e.valuta.civil c
  bookingDate : x.bookingDate =
    match e.booking with
    | none => ⟨1, 1, 1, 0, 0, 0, 0⟩
    | some (m, d) => bookedOn (c + e.valuta.year) e.valuta.month m d
  before : L.parseFloat (s.opening.whole ++ b!"." ++ s.opening.frac) = some x.before
  beforeDate : x.beforeDate = s.opening.day.civil c
  after : L.parseFloat (s.closing.whole ++ b!"." ++ s.closing.frac) = some x.after
  afterCurrency : x.afterCurrency = s.closing.currency
  afterDate : x.afterDate = s.closing.day.civil c
  bookingText : x.bookingText = text e.fields b!"?00"
  otherBank : x.otherBank = text e.fields b!"?30"
  otherAccount : x.otherAccount = text e.fields b!"?31"
  name : x.name = text e.fields b!"?32" ++ ((e.fields.lookup b!"?33").map fun t => ' ' :: toUTF8 t).getD []
  purpose : x.purpose = c!" ".intercalate (texts e.fields b!"?2")
  purpose2 : x.purpose2 = c!" ".intercalate (texts e.fields b!"?6")
  transactionID : x.transactionID = ((e.description.map fun d => value d.code).getD 0 : Nat)

/-- The amounts are numbers that Go can represent. -/
structure Amounts (L : Lib) (s : Statement) : Prop where
  opening : (L.parseFloat (s.opening.whole ++ b!"." ++ s.opening.frac)).isSome
  closing : (L.parseFloat (s.closing.whole ++ b!"." ++ s.closing.frac)).isSome
  current : ∀ b, s.current = some b → (L.parseFloat (b.whole ++ b!"." ++ b.frac)).isSome
  future : ∀ b, s.future = some b → (L.parseFloat (b.whole ++ b!"." ++ b.frac)).isSome
  entries : ∀ e ∈ s.entries, (L.parseFloat (e.whole ++ b!"." ++ e.frac)).isSome

/-! ## Dates -/

theorem two_digit {n : Nat} (h : n < 100) : (∀ b ∈ two n, Digit b) ∧ value (two n) = n := by
  have h1 : (UInt8.ofNat (48 + n / 10)).toNat = 48 + n / 10 := by
    rw [UInt8.toNat_ofNat']; omega
  have h2 : (UInt8.ofNat (48 + n % 10)).toNat = 48 + n % 10 := by
    rw [UInt8.toNat_ofNat']; omega
  constructor
  · intro b hb
    simp only [two, List.mem_cons, List.not_mem_nil, or_false] at hb
    unfold Digit
    rcases hb with rfl | rfl
    · rw [h1]; omega
    · rw [h2]; omega
  · simp only [two, value, List.length_cons, List.length_nil, h1, h2]
    omega

theorem day_isDate {c : Int} {d : Day} (h : d.In c) : IsDate c d.text (d.civil c) := by
  obtain ⟨hy, hex⟩ := h
  have hb := existing_bounds hex
  obtain ⟨y1, y2⟩ := two_digit hy
  obtain ⟨m1, m2⟩ := two_digit (n := d.month) (by omega)
  obtain ⟨d1, d2⟩ := two_digit (n := d.day) (by omega)
  refine ⟨?_, d.year, d.month, d.day, ?_, hex, rfl⟩
  · intro b hb
    simp only [Day.text, List.mem_append] at hb
    rcases hb with (hb | hb) | hb
    · exact y1 b hb
    · exact m1 b hb
    · exact d1 b hb
  · rw [Day.text, Element.value_append, Element.value_append, y2, m2, d2]
    simp only [two, List.length_cons, List.length_nil]
    omega

theorem day_length (d : Day) : d.text.length = 6 := by simp [Day.text, two]

theorem booking_isDate {y : Int} {m d : Nat} (h : ExistingDate y m d) :
    IsDate y (two m ++ two d) ⟨y, m, d, 0, 0, 0, 0⟩ := by
  have hb := existing_bounds h
  obtain ⟨m1, m2⟩ := two_digit (n := m) (by omega)
  obtain ⟨d1, d2⟩ := two_digit (n := d) (by omega)
  refine ⟨?_, 0, m, d, ?_, by simpa using h, by simp⟩
  · intro b hb
    simp only [List.mem_append] at hb
    rcases hb with hb | hb
    · exact m1 b hb
    · exact d1 b hb
  · rw [Element.value_append, m2, d2]
    simp only [two, List.length_cons, List.length_nil]
    omega

/-! ## Values of tags -/

theorem digit_neq {b : Byte} (h : Digit b) : b ≠ 0 ∧ b ≠ 13 ∧ b ≠ 44 ∧ b ≠ 47 ∧ b ≠ 58 ∧ b ≠ 78 := by
  unfold Digit at h
  refine ⟨?_, ?_, ?_, ?_, ?_, ?_⟩ <;> (rintro rfl; revert h; decide)

theorem upper_neq {b : Byte} (h : Upper b) : b ≠ 0 ∧ b ≠ 13 ∧ b ≠ 44 := by
  unfold Upper at h
  refine ⟨?_, ?_, ?_⟩ <;> (rintro rfl; revert h; decide)

theorem digits_line {v : Bytes} (h : ∀ b ∈ v, Digit b) : OneLine v :=
  ⟨fun h0 => (digit_neq (h 0 h0)).1 rfl, fun h0 => (digit_neq (h 13 h0)).2.1 rfl⟩

theorem uppers_line {v : Bytes} (h : ∀ b ∈ v, Upper b) : OneLine v :=
  ⟨fun h0 => (upper_neq (h 0 h0)).1 rfl, fun h0 => (upper_neq (h 13 h0)).2.1 rfl⟩

theorem Spec.OneLine.append {v w : Bytes} (hv : OneLine v) (hw : OneLine w) : OneLine (v ++ w) := by
  unfold OneLine at *
  simp [hv, hw]

theorem Spec.OneLine.value {v : Bytes} (h : OneLine v) : Value v := .of_line h.1 h.2

theorem not_ends {v : Bytes} (h : Continues v) : ∀ a b, v = a ++ b → b ≠ [] → ¬ EndsValue (b ++ [13, 10]) := by
  rintro a b rfl hb ⟨r, hr, hc⟩
  match b, hb with
  | [x], _ =>
    simp only [List.cons_append, List.nil_append, List.cons.injEq] at hr
    obtain ⟨_, h2, _⟩ := hr
    exact absurd h2 (by decide)
  | [x, y], _ =>
    simp only [List.cons_append, List.nil_append, List.cons.injEq] at hr
    obtain ⟨_, _, h3⟩ := hr
    subst h3
    simp at hc
  | x :: y :: z :: t, _ =>
    simp only [List.cons_append, List.nil_append, List.cons.injEq] at hr
    obtain ⟨rfl, rfl, h3⟩ := hr
    obtain ⟨k1, k2⟩ := h a z t rfl
    rw [← h3] at hc
    rcases hc with ⟨d, x, y, he, _⟩ | ⟨x, he⟩ | ⟨x, he⟩ | he
    all_goals simp only [List.cons.injEq] at he
    · exact k1 he.1
    · exact k2 he.1
    · exact k2 he.1
    · exact k2 he.1

theorem odd_line {v w : Bytes} {x : Byte} (hx : x ∈ v) (h13 : 13 ∉ v) (hu : ¬ Upper x) (hd : ¬ Digit x) (h44 : x ≠ 44 ∨ ∃ y ∈ v, ¬ Digit y ∧ y ≠ 44) :
    ¬ Plain (firstLine (v ++ w)) ∧ ¬ Decimal (firstLine (v ++ w)) := by
  have hp : ∀ b ∈ v, (fun b : Byte => b != 13) b = true := by
    intro b hb
    simp only [bne_iff_ne, ne_eq]
    rintro rfl
    exact h13 hb
  have hs : ∀ y ∈ v, y ∈ firstLine (v ++ w) := by
    intro y hy
    unfold firstLine
    rw [List.takeWhile_append_of_pos hp]
    exact List.mem_append_left _ hy
  constructor
  · intro h
    rcases h x (hs x hx) with h | h
    · exact hu h
    · exact hd h
  · rintro ⟨ds, es, he, h1, h2⟩
    obtain ⟨y, hy, hyd, hy4⟩ : ∃ y ∈ v, ¬ Digit y ∧ y ≠ 44 := by
      rcases h44 with h | h
      · exact ⟨x, hx, hd, h⟩
      · exact h
    have := hs y hy
    rw [he] at this
    simp only [List.mem_append, List.mem_cons] at this
    rcases this with h | h | h
    · exact hyd (h1.2 y h)
    · exact hy4 h
    · exact hyd (h2 y h)

theorem balance_line {c : Int} {b : Balance} (h : b.Ok c) : OneLine b.text := by
  have h1 : OneLine [b.mark] := by
    rcases h.mark with e | e <;> rw [e] <;> exact ⟨by decide, by decide⟩
  unfold Balance.text
  exact ((((h1.append (digits_line (day_isDate h.day).1)).append (uppers_line h.currency.2)).append (digits_line h.whole.2)).append
    ⟨by decide, by decide⟩).append (digits_line h.frac)

theorem mem_intercalate {s : Bytes} : ∀ {ls : List Bytes} {x : Byte}, x ∈ s.intercalate ls → x ∈ s ∨ x ∈ ls.flatten
  | [], x, h => by simp [List.intercalate] at h
  | [l], x, h => by simp [List.intercalate] at h; simp [h]
  | l :: m :: ls, x, h => by
    have e : s.intercalate (l :: m :: ls) = l ++ s ++ s.intercalate (m :: ls) := by simp [List.intercalate]
    rw [e, List.mem_append, List.mem_append] at h
    rcases h with (h | h) | h
    · simp [h]
    · simp [h]
    · rcases mem_intercalate h with h | h
      · exact .inl h
      · exact .inr (by rw [List.flatten_cons, List.mem_append]; exact .inr h)

theorem description_value {d : Description} (h : d.Ok) : Value d.text := by
  have hcode := digits_line h.code.2
  have hkeys : ∀ k ∈ fieldKeys, OneLine k := by
    intro k hk
    have : ∀ k ∈ fieldKeys, 0 ∉ k ∧ 13 ∉ k := by decide
    exact this k hk
  have hflat : 0 ∉ d.lines.flatten := by
    rw [h.lines]
    simp only [List.mem_flatten, List.mem_map, not_exists, not_and]
    rintro l ⟨f, hf, rfl⟩ h0
    rcases List.mem_append.1 h0 with h0 | h0
    · exact (hkeys f.1 (h.keys.subset (List.mem_map_of_mem hf))).1 h0
    · exact (h.texts f hf).2 h0
  refine ⟨?_, ?_, not_ends h.continues, ?_⟩
  · unfold Description.text
    rw [List.mem_append]
    rintro (h0 | h0)
    · exact hcode.1 h0
    · rcases mem_intercalate h0 with h0 | h0
      · revert h0; decide
      · exact hflat h0
  · have := h.code.1
    unfold Description.text
    match hc : d.code with
    | [] => simp [hc] at this
    | x :: r =>
      simp only [List.cons_append, List.head?_cons, ne_eq, Option.some.injEq]
      rintro rfl
      exact hcode.2 (by simp [hc])
  · intro h13
    unfold Description.text at h13
    match hl : d.lines with
    | [] =>
      rw [hl] at h13
      simp [List.intercalate, hcode.2] at h13
    | [l] =>
      rw [hl] at h13
      have := h.noCR l (by simp [hl])
      simp [List.intercalate, hcode.2, this] at h13
    | l :: m :: ls =>
      have hf := h.first l (m :: ls) hl (by simp)
      have e : d.text = (d.code ++ l) ++ (b!"\r\n" ++ b!"\r\n".intercalate (m :: ls)) := by
        unfold Description.text
        rw [hl]
        simp [List.intercalate]
      rw [e]
      refine odd_line (x := 63) (by simp [hf]) ?_ (by unfold Upper; decide) (by unfold Digit; decide) (.inl (by decide))
      simp [hcode.2, h.noCR l (by simp [hl])]

theorem booking_digits {c : Int} {e : Entry} (h : e.Ok c) :
    ∀ b ∈ (match e.booking with | none => [] | some (m, d) => two m ++ two d : Bytes), Digit b := by
  match hb : e.booking with
  | none => simp
  | some (m, d) => exact (booking_isDate (h.booking m d hb)).1

theorem mark_letters {c : Int} {e : Entry} (h : e.Ok c) : ∀ x ∈ e.mark ++ e.kind, Upper x := by
  intro x hx
  rcases List.mem_append.1 hx with hx | hx
  · have hm := h.mark
    simp only [List.mem_cons, List.not_mem_nil, or_false] at hm
    rcases hm with hm | hm | hm | hm <;> rw [hm] at hx <;>
      (simp only [List.mem_cons, List.not_mem_nil, or_false] at hx; unfold Upper; rcases hx with rfl | rfl <;> decide)
  · exact h.kind.2 x hx

theorem entry_value {c : Int} {e : Entry} (h : e.Ok c) : Value e.text := by
  have hkey : OneLine e.key := by
    constructor
    · intro h0
      rcases h.key.2 0 h0 with h | h
      · exact (upper_neq h).1 rfl
      · exact (digit_neq h).1 rfl
    · intro h0
      rcases h.key.2 13 h0 with h | h
      · exact (upper_neq h).2.1 rfl
      · exact (digit_neq h).2.1 rfl
  obtain ⟨front, hfront⟩ : ∃ f : Bytes, f = e.valuta.text ++ (match e.booking with | none => [] | some (m, d) => two m ++ two d) ++ e.mark ++
      e.kind ++ e.whole ++ b!"," ++ e.frac ++ b!"N" ++ e.key := ⟨_, rfl⟩
  have ht : e.text = front ++ e.rest := by rw [hfront]; rfl
  have hone : OneLine front := by
    rw [hfront, List.append_assoc _ e.mark]
    exact (((((((digits_line (day_isDate h.valuta).1).append (digits_line (booking_digits h))).append
      (uppers_line (mark_letters h))).append (digits_line h.whole.2)).append ⟨by decide, by decide⟩).append
      (digits_line h.frac)).append ⟨by decide, by decide⟩).append hkey
  have hcomma : 44 ∈ front := by rw [hfront]; simp
  have hN : 78 ∈ front := by rw [hfront]; simp
  rw [ht]
  refine ⟨?_, ?_, ?_, fun _ => ?_⟩
  · simp [hone.1, h.noNul]
  · match front, hone, hcomma with
    | x :: f, hone, _ =>
      simp only [List.cons_append, List.head?_cons, ne_eq, Option.some.injEq]
      rintro rfl
      exact hone.2 (by simp)
  · apply not_ends
    intro a x b hab
    rcases List.append_eq_append_iff.1 hab with ⟨t, ht1, ht2⟩ | ⟨t, ht1, ht2⟩
    · exact h.continues t x b ht2
    · match t with
      | [] => exact h.continues [] x b (by simpa using ht2.symm)
      | y :: t =>
        simp only [List.cons_append, List.cons.injEq] at ht2
        exact absurd (by rw [ht1, ← ht2.1]; simp) hone.2
  · exact odd_line (x := 44) hcomma hone.2 (by unfold Upper; decide) (by unfold Digit; decide)
      (.inr ⟨78, hN, by unfold Digit; decide, by decide⟩)

/-! ## Reading the tags -/

/-- The line as the earlier properties write it. -/
def Spec.Entry.line (e : Entry) : Line where
  valuta := e.valuta.text
  booking := match e.booking with | none => [] | some (m, d) => two m ++ two d
  indicator := if e.mark.length = 2 ∧ e.kind = [] then e.mark.take 1 else e.mark
  kind := if e.mark.length = 2 ∧ e.kind = [] then e.mark.drop 1 else e.kind
  whole := e.whole
  frac := e.frac
  key := e.key
  rest := e.rest

theorem line_letters (e : Entry) : e.line.indicator ++ e.line.kind = e.mark ++ e.kind := by
  unfold Entry.line
  simp only
  split
  · rename_i h
    rw [h.2, List.append_nil, List.take_append_drop]
  · rfl

theorem line_text (e : Entry) : e.line.text = b!":61:" ++ e.text := by
  have h := line_letters e
  have : e.line.text = b!":61:" ++ e.line.valuta ++ e.line.booking ++ (e.line.indicator ++ e.line.kind) ++ e.line.whole ++ b!"," ++
      e.line.frac ++ b!"N" ++ e.line.key ++ e.line.rest := by
    unfold Line.text
    simp
  rw [this, h]
  unfold Entry.text Entry.line
  simp only [List.append_assoc]
  rfl

theorem line_ok {c : Int} {e : Entry} (h : e.Ok c) : e.line.Ok := by
  have hm := h.mark
  simp only [List.mem_cons, List.not_mem_nil, or_false] at hm
  refine ⟨day_length _, ?_, ?_, ?_, ?_, ?_, h.key.1⟩
  · rw [line_letters]
    intro x hx
    have := mark_letters h x hx
    unfold Upper at this
    unfold Letter Digit
    omega
  · have hk := h.kind.1
    unfold Entry.line
    simp only
    split
    · rename_i hh
      left
      simp [hh.1]
    · rename_i hh
      rcases hm with hm | hm | hm | hm
      · left; simp [hm, hk]
      · left; simp [hm, hk]
      · right
        rw [hm] at hh
        simp only [List.length_cons, List.length_nil, Nat.reduceAdd, true_and] at hh
        refine ⟨by simp [hm], ?_⟩
        have := List.length_pos_iff.2 hh
        omega
      · right
        rw [hm] at hh
        simp only [List.length_cons, List.length_nil, Nat.reduceAdd, true_and] at hh
        refine ⟨by simp [hm], ?_⟩
        have := List.length_pos_iff.2 hh
        omega
  · obtain ⟨h1, h2⟩ := h.whole
    cases hw : e.whole with
    | nil => exact absurd hw h1
    | cons d w => exact ⟨d, w, hw, h2 d (by simp [hw])⟩
  · exact fun h0 => (digit_neq (h.whole.2 44 h0)).2.2.1 rfl
  · intro h0
    rcases List.mem_append.1 h0 with h0 | h0
    · exact (digit_neq (h.whole.2 78 h0)).2.2.2.2.2 rfl
    · exact (digit_neq (h.frac 78 h0)).2.2.2.2.2 rfl

theorem value_atoi {v : Bytes} (h : DigitString v) (hv : value v < 2 ^ 63) : atoi v = some (value v : Int) := by
  have := atoi_digits h (by rw [digitsVal_eq]; exact hv)
  rwa [digitsVal_eq] at this

theorem description_read {d : Description} (h : d.Ok) (spare : Bytes) :
    ∃ f, unmarshalCustom spare (b!":86:" ++ d.text) = .ok f ∧ f.transactionID = (value d.code : Nat) ∧
      f.bookingText = text d.fields b!"?00" ∧ f.purpose = texts d.fields b!"?2" ∧ f.bankID = text d.fields b!"?30" ∧
      f.accountID = text d.fields b!"?31" ∧
      f.name = text d.fields b!"?32" ++ ((d.fields.lookup b!"?33").map fun t => ' ' :: toUTF8 t).getD [] ∧
      f.purpose2 = texts d.fields b!"?6" := by
  have hs : DigitString d.code := by
    refine ⟨?_, h.code.2⟩
    intro h0
    have := h.code.1
    simp [h0] at this
  have hlt := six_lt d.code h.code.2
  rw [h.code.1] at hlt
  obtain ⟨f, h1, _, h2, h3, _, h4, h5, h6, h7, _, h8⟩ := C44_fields (spare := spare) (pre := []) h.code.1
    (value_atoi hs (by omega)) h.noCR (by rw [h.lines]; simp [subfields, List.flatMap]) (by simp) h.keys (fun f hf => (h.texts f hf).1)
    (fun t ht => by rw [value_atoi (h.key34 t ht).1 (h.key34 t ht).2]; rfl)
  exact ⟨f, by simpa [Description.text] using h1, h2, h3, h4, h5, h6, h7, h8⟩

theorem balance_read {L : Lib} (h1 : 1000 ≤ L.year) (h2 : L.year ≤ 9999) {id : Bytes} (hid : 58 ∉ id) {b : Balance}
    (h : b.Ok (L.year / 100 * 100)) {a : L.F} (ha : L.parseFloat (b.whole ++ b!"." ++ b.frac) = some a) :
    unmarshalBalance L (b!":" ++ id ++ b!":" ++ b.text) =
      .ok ⟨b!":" ++ id ++ b!":", [b.mark], b.day.civil (L.year / 100 * 100), b.currency, a⟩ := by
  have := C78_fields h1 h2 (ind := b.mark) hid (day_length b.day) (day_isDate h.day) h.currency.1
    (fun h0 => (digit_neq (h.whole.2 44 h0)).2.2.1 rfl) ha
  rw [← this]
  unfold Balance.text
  simp

theorem next_year {y : Int} {v m d : Nat} (hex : ExistingDate y m d) :
    (if 1 < ((v : Int) - m).natAbs then nextYear ⟨y, m, d, 0, 0, 0, 0⟩ else ⟨y, m, d, 0, 0, 0, 0⟩) = bookedOn y v m d := by
  unfold bookedOn
  by_cases hm : v ≤ m + 1 ∧ m ≤ v + 1
  · rw [if_neg (by omega), if_pos hm]
  · rw [if_pos (by omega), if_neg hm]
    have hex' := (Element.existing_iff _ _ _).1 hex
    unfold nextYear date
    simp only
    by_cases hf : m = 2 ∧ d = 29
    · obtain ⟨rfl, rfl⟩ := hf
      have hl : isLeap y = true := by
        by_contra hn
        simp [daysIn, hn] at hex'
      have hl' : isLeap (y + 1) = false := by
        unfold isLeap at hl ⊢
        simp only [Bool.and_eq_true, beq_iff_eq] at hl
        simp only [Bool.and_eq_false_iff, beq_eq_false_iff_ne]
        left
        omega
      simp [daysIn, hl']
    · rw [if_neg hf, if_pos]
      have : d ≤ daysIn m y := by omega
      unfold daysIn at this ⊢
      by_cases h2 : m = 2
      · simp only [h2, if_true] at this ⊢
        have h29 : d ≠ 29 := fun h => hf ⟨h2, h⟩
        have hle : (if isLeap y = true then 29 else 28) ≤ 29 := by split <;> omega
        split <;> omega
      · simp only [h2, if_false] at this ⊢
        exact this

/-- An entry as the parser holds it. -/
structure Held (L : Lib) (e : Entry) (q : Sequence L.F) : Prop where
  valuta : q.transaction.valutaDate = e.valuta.civil (L.year / 100 * 100)
  booking : q.transaction.bookingDate =
    match e.booking with
    | none => ⟨1, 1, 1, 0, 0, 0, 0⟩
    | some (m, d) => bookedOn (L.year / 100 * 100 + e.valuta.year) e.valuta.month m d
  negative : q.transaction.indicator = ['D'] ↔ Negative e
  amount : L.parseFloat (e.whole ++ b!"." ++ e.frac) = some q.transaction.amount

theorem entry_read {L : Lib} (h1 : 1000 ≤ L.year) (h2 : L.year ≤ 9999) {e : Entry} (h : e.Ok (L.year / 100 * 100))
    (hc : ¬ Crash e.rest) {a : L.F} (ha : L.parseFloat (e.whole ++ b!"." ++ e.frac) = some a) :
    ∃ t, unmarshalTransaction L (b!":61:" ++ e.text) = .ok t ∧ Held L e ⟨t, none⟩ := by
  obtain ⟨r, bk, i, hr⟩ := (references_total e.rest).resolve_right hc
  have hok := line_ok h
  have hv := day_isDate h.valuta
  have pv := (C42_six h1 h2 (day_length e.valuta) (e.valuta.civil (L.year / 100 * 100))).1.2 (.inl hv)
  rw [← line_text]
  cases hb : e.booking with
  | none =>
    have hbl : e.line.booking = [] := by simp [Entry.line, hb]
    obtain ⟨t, k1, _, k2, k3, k4, _, k5, _⟩ := C43_unbooked h1 h2 hok hv hbl ha hr
    refine ⟨t, k1, k2, by rw [hb]; exact k3, ?_, by rw [k5]; exact ha⟩
    simp only
    rw [k4, single_D, line_letters]
    unfold Negative
    simp only [hb, Option.isSome_none, Bool.false_eq_true, if_false]
    generalize e.mark ++ e.kind = z
    match z with
    | [] => simp
    | [a] => simp
    | a :: b :: r => simp
  | some p =>
    obtain ⟨m, d⟩ := p
    have hex := h.booking m d hb
    have hbl : e.line.booking = two m ++ two d := by simp [Entry.line, hb]
    have hlen : e.line.booking.length = 4 := by rw [hbl]; simp [two]
    have hbd : IsDate (e.valuta.civil (L.year / 100 * 100)).year e.line.booking ⟨L.year / 100 * 100 + e.valuta.year, m, d, 0, 0, 0, 0⟩ := by
      rw [hbl]; exact booking_isDate hex
    obtain ⟨y1, y2, _⟩ := six_year h1 h2 (day_length e.valuta) pv
    have pb := (C42_four y1 y2 hlen _).1.2 (.inl ⟨hbd, rfl⟩)
    obtain ⟨x, xs, hx⟩ : ∃ x xs, e.line.booking = x :: xs := ⟨_, _, by rw [hbl]; rfl⟩
    have key := read_booked L hok hlen (c := x) (by simp [hx]) (hbd.1 x (by simp [hx])) pv pb ha
    rw [((references_iff e.rest).1 r bk i).2 hr |> fun h => (show references e.line.rest = _ from h)] at key
    refine ⟨_, key, rfl, ?_, ?_, ha⟩
    · rw [hb]
      exact next_year hex
    · simp only
      rw [single_D]
      unfold Negative
      simp only [hb, Option.isSome_some, if_true]
      unfold Entry.line
      simp only
      have hm := h.mark
      simp only [List.mem_cons, List.not_mem_nil, or_false] at hm
      rcases hm with hm | hm | hm | hm <;> rw [hm] <;> simp <;> split <;> simp

/-- The texts of an entry as the parser holds them. -/
structure Texts (e : Entry) (f : CustomField) : Prop where
  transactionID : f.transactionID = ((e.description.map fun d => value d.code).getD 0 : Nat)
  bookingText : f.bookingText = text e.fields b!"?00"
  purpose : f.purpose = texts e.fields b!"?2"
  bankID : f.bankID = text e.fields b!"?30"
  accountID : f.accountID = text e.fields b!"?31"
  name : f.name = text e.fields b!"?32" ++ ((e.fields.lookup b!"?33").map fun t => ' ' :: toUTF8 t).getD []
  purpose2 : f.purpose2 = texts e.fields b!"?6"

theorem readTags_step {L : Lib} {m m' : MT940 L.F} {o o' : Bool} {t : Bytes} {ts : List Bytes} (h : readTag L m o t = .next m' o') :
    readTags L (t :: ts) m o = readTags L ts m' o' := by
  rw [readTags, h]

theorem lastDescription_snoc {F : Type} (qs : List (Sequence F)) (q : Sequence F) : lastDescription (qs ++ [q]) = some q.description := by
  simp [lastDescription]

theorem describeLast_snoc {F : Type} (q : Sequence F) (d : CustomField) : ∀ qs : List (Sequence F),
    describeLast (qs ++ [q]) d = qs ++ [{ q with description := some d }]
  | [] => rfl
  | [a] => rfl
  | a :: b :: qs => by
    have := describeLast_snoc q d (b :: qs)
    simp only [List.cons_append] at this ⊢
    rw [describeLast, this]
    simp

theorem line_step {L : Lib} {m : MT940 L.F} {o : Bool} {v : Bytes} {t : TransactionTag L.F}
    (h : unmarshalTransaction L (b!":61:" ++ v) = .ok t) :
    readTag L m o (b!":61:" ++ v) = .next { m with transactions := m.transactions ++ [⟨t, none⟩] } o := by
  have hk : kindOf (b!":61:" ++ v) = .transaction := kind_transaction.2 (List.prefix_append _ _)
  unfold readTag
  rw [hk, h]
  rfl

theorem description_step {L : Lib} {m : MT940 L.F} {qs : List (Sequence L.F)} {q : Sequence L.F} {v : Bytes} {f : CustomField}
    (hm : m.transactions = qs ++ [q]) (hq : q.description = none)
    (h : unmarshalCustom (spareOf (b!":86:" ++ v)) (b!":86:" ++ v) = .ok f) :
    readTag L m true (b!":86:" ++ v) = .next { m with transactions := qs ++ [{ q with description := some f }] } true := by
  have hk : kindOf (b!":86:" ++ v) = .description := kind_description.2 (List.prefix_append _ _)
  unfold readTag
  rw [hk, h]
  simp only [if_true]
  rw [hm, lastDescription_snoc, hq, describeLast_snoc]

/-- The bytes of a tag. -/
def Spec.Tag.bytes (t : Tag) : Bytes := t.id ++ t.value

theorem entries_read {L : Lib} (h1 : 1000 ≤ L.year) (h2 : L.year ≤ 9999) : ∀ {es : List Entry},
    (∀ e ∈ es, e.Ok (L.year / 100 * 100) ∧ ¬ Crash e.rest ∧ (L.parseFloat (e.whole ++ b!"." ++ e.frac)).isSome) →
    ∃ qs : List (Sequence L.F), List.Forall₂ (fun e q => Held L e q ∧ Texts e (q.description.getD {})) es qs ∧
      ∀ (m : MT940 L.F) (ts : List Bytes), readTags L ((es.flatMap Entry.tags).map Tag.bytes ++ ts) m true =
        readTags L ts { m with transactions := m.transactions ++ qs } true
  | [], _ => ⟨[], .nil, fun m ts => by simp⟩
  | e :: es, h => by
    obtain ⟨qs, hqs, hread⟩ := entries_read h1 h2 (es := es) fun x hx => h x (by simp [hx])
    obtain ⟨hok, hc, ha⟩ := h e (by simp)
    obtain ⟨a, ha⟩ := Option.isSome_iff_exists.1 ha
    obtain ⟨t, ht, held⟩ := entry_read h1 h2 hok hc ha
    cases hd : e.description with
    | none =>
      refine ⟨⟨t, none⟩ :: qs, .cons ⟨held, ?_⟩ hqs, fun m ts => ?_⟩
      · constructor <;> simp [Entry.fields, hd, text, texts, toUTF8]
      · have e1 : ((e :: es).flatMap Entry.tags).map Tag.bytes ++ ts =
            (b!":61:" ++ e.text) :: ((es.flatMap Entry.tags).map Tag.bytes ++ ts) := by
          simp [Entry.tags, hd, Tag.bytes]
        rw [e1, readTags_step (line_step ht), hread]
        simp
    | some d =>
      obtain ⟨f, hf, k1, k2, k3, k4, k5, k6, k7⟩ := description_read (hok.description d hd) (spareOf (b!":86:" ++ d.text))
      refine ⟨⟨t, some f⟩ :: qs, .cons ⟨⟨held.valuta, held.booking, held.negative, held.amount⟩, ?_⟩ hqs, fun m ts => ?_⟩
      · constructor <;> simp [Entry.fields, hd, k1, k2, k3, k4, k5, k6, k7]
      · have e1 : ((e :: es).flatMap Entry.tags).map Tag.bytes ++ ts =
            (b!":61:" ++ e.text) :: (b!":86:" ++ d.text) :: ((es.flatMap Entry.tags).map Tag.bytes ++ ts) := by
          simp [Entry.tags, hd, Tag.bytes]
        rw [e1, readTags_step (line_step ht), readTags_step (description_step (qs := m.transactions) (q := ⟨t, none⟩) rfl rfl hf), hread]
        simp

theorem job_step {L : Lib} {m : MT940 L.F} {o : Bool} {v : Bytes} :
    readTag L m o (b!":20:" ++ v) = .next { m with jobReference := some ⟨b!":20:", v⟩ } o := by
  have hk : kindOf (b!":20:" ++ v) = .job := by simp [kindOf, List.isPrefixOf]
  have hx : unmarshalTextTag (b!":20:" ++ v) = .ok ⟨b!":20:", v⟩ := by simp [unmarshalTextTag, tagElements]
  unfold readTag
  rw [hk, hx]
  rfl

theorem reference_step {L : Lib} {m : MT940 L.F} {o : Bool} {v : Bytes} :
    readTag L m o (b!":21:" ++ v) = .next { m with reference := some ⟨b!":21:", v⟩ } o := by
  have hk : kindOf (b!":21:" ++ v) = .reference := by simp [kindOf, List.isPrefixOf]
  have hx : unmarshalTextTag (b!":21:" ++ v) = .ok ⟨b!":21:", v⟩ := by simp [unmarshalTextTag, tagElements]
  unfold readTag
  rw [hk, hx]
  rfl

theorem account_step {L : Lib} {m : MT940 L.F} {o : Bool} {b a : Bytes} (hb : 47 ∉ b) (ha : 47 ∉ a) :
    readTag L m o (b!":25:" ++ (b ++ b!"/" ++ a)) = .next { m with account := some ⟨b!":25:", b, a⟩ } o := by
  have hk : kindOf (b!":25:" ++ (b ++ b!"/" ++ a)) = .account := kind_account.2 (List.prefix_append _ _)
  have hs : split 47 (b ++ b!"/" ++ a) = [b, a] := Domain.split_two.2 ⟨by simp, hb, ha⟩
  have hu : unmarshalAccount (b!":25:" ++ (b ++ b!"/" ++ a)) = .ok ⟨b!":25:", b, a⟩ := by
    have : tagElements (b!":25:" ++ (b ++ b!"/" ++ a)) = .ok (b!":25:", b ++ b!"/" ++ a) := by simp [tagElements]
    unfold unmarshalAccount
    rw [this]
    simp only [Outcome.bind, hs]
  unfold readTag
  rw [hk, hu]
  rfl

theorem number_step {L : Lib} {m : MT940 L.F} {o : Bool} {n : Bytes} {k : Option Bytes} (hn : DigitString n ∧ value n < 2 ^ 63)
    (hk : ∀ x, k = some x → DigitString x ∧ value x < 2 ^ 63) :
    readTag L m o (b!":28C:" ++ (n ++ (k.map fun x => b!"/" ++ x).getD [])) =
      .next { m with statementNumber := some ⟨b!":28C:", value n, (k.map fun x => (value x : Int)).getD 0⟩ } o := by
  have hkind : kindOf (b!":28C:" ++ (n ++ (k.map fun x => b!"/" ++ x).getD [])) = .number := by
    simp [kindOf, List.isPrefixOf]
  have h47 : 47 ∉ n := fun h0 => (digit_neq (hn.1.2 47 h0)).2.2.2.1 rfl
  have he : ∀ v, tagElements (b!":28C:" ++ v) = .ok (b!":28C:", v) := fun v => by simp [tagElements]
  have hp : ∀ x ∈ n, (fun b : Byte => b != 47) x = true := by
    intro x hx
    simp only [bne_iff_ne, ne_eq]
    rintro rfl
    exact h47 hx
  have hu : unmarshalStatementNumber (b!":28C:" ++ (n ++ (k.map fun x => b!"/" ++ x).getD [])) =
      .ok ⟨b!":28C:", value n, (k.map fun x => (value x : Int)).getD 0⟩ := by
    unfold unmarshalStatementNumber
    rw [he]
    cases k with
    | none =>
      simp [h47, value_atoi hn.1 hn.2]
    | some x =>
      obtain ⟨x1, x2⟩ := hk x rfl
      simp only [Option.map_some, Option.getD_some, Outcome.bind]
      rw [if_pos (by simp), List.dropWhile_append_of_pos hp, List.takeWhile_append_of_pos hp]
      simp [value_atoi hn.1 hn.2, value_atoi x1 x2]
  unfold readTag
  rw [hkind, hu]
  rfl

theorem remark_step {L : Lib} {m : MT940 L.F} {v : Bytes} {f : CustomField}
    (h : unmarshalCustom (spareOf (b!":86:" ++ v)) (b!":86:" ++ v) = .ok f) :
    readTag L m false (b!":86:" ++ v) = .next { m with customField := some f } false := by
  have hk : kindOf (b!":86:" ++ v) = .description := kind_description.2 (List.prefix_append _ _)
  unfold readTag
  rw [hk, h]
  rfl

theorem opening_step {L : Lib} {m : MT940 L.F} {o f : Bool} {v : Bytes} {b : BalanceTag L.F}
    (h : unmarshalBalance L (b!":60" ++ finality f ++ b!":" ++ v) = .ok b) :
    readTag L m o (b!":60" ++ finality f ++ b!":" ++ v) = .next { m with startingBalance := some b } true := by
  have hk : kindOf (b!":60" ++ finality f ++ b!":" ++ v) = .starting := kind_starting.2 (by simp [List.append_assoc])
  unfold readTag
  rw [hk, h]
  rfl

theorem closing_step {L : Lib} {m : MT940 L.F} {o f : Bool} {v : Bytes} {b : BalanceTag L.F}
    (h : unmarshalBalance L (b!":62" ++ finality f ++ b!":" ++ v) = .ok b) :
    readTag L m o (b!":62" ++ finality f ++ b!":" ++ v) = .next { m with closingBalance := some b } false := by
  have hk : kindOf (b!":62" ++ finality f ++ b!":" ++ v) = .closing := kind_closing.2 (by simp [List.append_assoc])
  unfold readTag
  rw [hk, h]
  rfl

theorem current_step {L : Lib} {m : MT940 L.F} {o : Bool} {v : Bytes} {b : BalanceTag L.F}
    (h : unmarshalBalance L (b!":64:" ++ v) = .ok b) :
    readTag L m o (b!":64:" ++ v) = .next { m with currentValutaBalance := some b } o := by
  have hk : kindOf (b!":64:" ++ v) = .current := by simp [kindOf, List.isPrefixOf]
  unfold readTag
  rw [hk, h]
  rfl

theorem future_step {L : Lib} {m : MT940 L.F} {o : Bool} {v : Bytes} {b : BalanceTag L.F}
    (h : unmarshalBalance L (b!":65:" ++ v) = .ok b) :
    readTag L m o (b!":65:" ++ v) = .next { m with futureValutaBalance := some b } o := by
  have hk : kindOf (b!":65:" ++ v) = .future := by simp [kindOf, List.isPrefixOf]
  unfold readTag
  rw [hk, h]
  rfl

theorem tag_id {ds letter : Bytes} (h : DigitString ds) (hl : letter = [] ∨ ∃ c, letter = [c] ∧ Upper c) :
    TagId (b!":" ++ ds ++ letter ++ b!":") := ⟨[58], ds, letter, rfl, .inr rfl, h, hl⟩

theorem id_digits {a b : Byte} (ha : Digit a) (hb : Digit b) : DigitString [a, b] := ⟨by simp, by simp [ha, hb]⟩

theorem tag_ok (a b : Byte) (letter v : Bytes) (ha : Digit a) (hb : Digit b) (hl : letter = [] ∨ ∃ c, letter = [c] ∧ Upper c)
    (hv : Value v) : Tag.Ok ⟨b!":" ++ [a, b] ++ letter ++ b!":", v⟩ :=
  ⟨rfl, tag_id (id_digits ha hb) hl, hv⟩

theorem plain_tag_ok (a b : Byte) (v : Bytes) (ha : Digit a) (hb : Digit b) (hv : Value v) : Tag.Ok ⟨[58, a, b, 58], v⟩ := by
  simpa using tag_ok a b [] v ha hb (.inl rfl) hv

theorem statement_tags_ok {c : Int} {s : Statement} (h : s.Ok c) : ∀ t ∈ s.tags, t.Ok := by
  have D : ∀ n : Byte, 48 ≤ n.toNat → n.toNat ≤ 57 → Digit n := fun n h1 h2 => ⟨h1, h2⟩
  have hf : ∀ m : Bool, finality m = [] ∨ ∃ c, finality m = [c] ∧ Upper c := by
    intro m
    cases m
    · exact .inr ⟨70, rfl, by unfold Upper; decide⟩
    · exact .inr ⟨77, rfl, by unfold Upper; decide⟩
  intro t ht
  simp only [Statement.tags, List.mem_append, List.mem_cons, List.not_mem_nil, or_false, Option.mem_toList, Option.map_eq_some_iff,
    List.mem_flatMap] at ht
  rcases ht with ((((((rfl | ⟨r, hr, rfl⟩) | rfl | rfl | rfl) | ⟨e, he, ht⟩) | rfl) | ⟨b, hb, rfl⟩) | ⟨b, hb, rfl⟩) | ⟨d, hd, rfl⟩
  · exact plain_tag_ok 50 48 _ (D _ (by decide) (by decide)) (D _ (by decide) (by decide)) h.reference.value
  · exact plain_tag_ok 50 49 _ (D _ (by decide) (by decide)) (D _ (by decide) (by decide)) (h.related r hr).value
  · exact plain_tag_ok 50 53 _ (D _ (by decide) (by decide)) (D _ (by decide) (by decide))
      ((h.bank.1.append ⟨by decide, by decide⟩).append h.account.1).value
  · refine tag_ok 50 56 b!"C" _ (D _ (by decide) (by decide)) (D _ (by decide) (by decide)) (.inr ⟨67, rfl, by unfold Upper; decide⟩) ?_
    apply Spec.OneLine.value
    apply (digits_line h.number.1.2).append
    cases hs : s.sheet with
    | none => exact ⟨by simp, by simp⟩
    | some n => exact (OneLine.append (v := b!"/") ⟨by decide, by decide⟩ (digits_line (h.sheet n hs).1.2))
  · exact tag_ok 54 48 _ _ (D _ (by decide) (by decide)) (D _ (by decide) (by decide)) (hf _) (balance_line h.opening).value
  · simp only [Entry.tags, List.mem_cons, Option.mem_toList, Option.map_eq_some_iff] at ht
    rcases ht with rfl | ⟨d, hd, rfl⟩
    · exact plain_tag_ok 54 49 _ (D _ (by decide) (by decide)) (D _ (by decide) (by decide)) (entry_value (h.entries e he))
    · exact plain_tag_ok 56 54 _ (D _ (by decide) (by decide)) (D _ (by decide) (by decide))
        (description_value ((h.entries e he).description d hd))
  · exact tag_ok 54 50 _ _ (D _ (by decide) (by decide)) (D _ (by decide) (by decide)) (hf _) (balance_line h.closing).value
  · exact plain_tag_ok 54 52 _ (D _ (by decide) (by decide)) (D _ (by decide) (by decide)) (balance_line (h.current b hb)).value
  · exact plain_tag_ok 54 53 _ (D _ (by decide) (by decide)) (D _ (by decide) (by decide)) (balance_line (h.future b hb)).value
  · exact plain_tag_ok 56 54 _ (D _ (by decide) (by decide)) (D _ (by decide) (by decide)) (description_value (h.remark d hd))

theorem opt_step {L : Lib} {α : Type} {x : Option α} {f : α → Tag} {m : MT940 L.F} {o : Bool} {P : MT940 L.F → Prop}
    (hm : P m) (h : ∀ a, x = some a → ∃ m', P m' ∧ readTag L m o (f a).bytes = .next m' o) :
    ∃ m', P m' ∧ ∀ ts, readTags L ((x.map f).toList.map Tag.bytes ++ ts) m o = readTags L ts m' o := by
  cases x with
  | none => exact ⟨m, hm, fun _ => rfl⟩
  | some a =>
    obtain ⟨m', h1, h2⟩ := h a rfl
    exact ⟨m', h1, fun ts => by simp only [Option.map_some, Option.toList_some, List.map_cons, List.map_nil, List.cons_append, List.nil_append]; exact readTags_step h2⟩

theorem balance_read' {L : Lib} (h1 : 1000 ≤ L.year) (h2 : L.year ≤ 9999) {id : Bytes} (hid : 58 ∉ id) {b : Balance}
    (h : b.Ok (L.year / 100 * 100)) (ha : (L.parseFloat (b.whole ++ b!"." ++ b.frac)).isSome) :
    ∃ t, unmarshalBalance L (b!":" ++ id ++ b!":" ++ b.text) = .ok t ∧ t.bookingDate = b.day.civil (L.year / 100 * 100) ∧
      t.currency = b.currency ∧ L.parseFloat (b.whole ++ b!"." ++ b.frac) = some t.amount := by
  obtain ⟨a, ha⟩ := Option.isSome_iff_exists.1 ha
  exact ⟨_, balance_read h1 h2 hid h ha, rfl, rfl, ha⟩

/-- The head of a statement as the parser holds it. -/
structure HeldHead {F : Type} (s : Statement) (m : MT940 F) : Prop where
  job : m.jobReference = some ⟨b!":20:", s.reference⟩
  reference : m.reference = s.related.map fun r => ⟨b!":21:", r⟩
  number : m.statementNumber = some ⟨b!":28C:", value s.number, (s.sheet.map fun x => (value x : Int)).getD 0⟩

/-- A statement as the parser holds it. -/
structure HeldStatement (L : Lib) (s : Statement) (m : MT940 L.F) : Prop where
  head : HeldHead s m
  account : m.account = some ⟨b!":25:", s.bank, s.account⟩
  opening : ∃ b, m.startingBalance = some b ∧ b.bookingDate = s.opening.day.civil (L.year / 100 * 100) ∧
    b.currency = s.opening.currency ∧ L.parseFloat (s.opening.whole ++ b!"." ++ s.opening.frac) = some b.amount
  closing : ∃ b, m.closingBalance = some b ∧ b.bookingDate = s.closing.day.civil (L.year / 100 * 100) ∧
    b.currency = s.closing.currency ∧ L.parseFloat (s.closing.whole ++ b!"." ++ s.closing.frac) = some b.amount
  transactions : List.Forall₂ (fun e q => Held L e q ∧ Texts e (q.description.getD {})) s.entries m.transactions

theorem statement_read {L : Lib} (h1 : 1000 ≤ L.year) (h2 : L.year ≤ 9999) {s : Statement} (h : s.Ok (L.year / 100 * 100))
    (ha : Amounts L s) (hc : ∀ e ∈ s.entries, ¬ Crash e.rest) :
    ∃ m, unmarshalMessage L s.text = .done m true ∧ HeldStatement L s m := by
  have hne : s.tags ≠ [] := by simp [Statement.tags]
  have hex : extractTags s.text = .ok (s.tags.map Tag.bytes) := C38_tags_complete hne (statement_tags_ok h)
  obtain ⟨qs, hqs, hread⟩ := entries_read h1 h2 fun e he => ⟨h.entries e he, hc e he, ha.entries e he⟩
  have hfin : ∀ f, (58 : Byte) ∉ b!"60" ++ finality f ∧ (58 : Byte) ∉ b!"62" ++ finality f := by
    intro f; cases f <;> decide
  obtain ⟨ob, ho1, ho2, ho3, ho4⟩ := balance_read' h1 h2 (hfin s.openingM).1 h.opening ha.opening
  obtain ⟨cb, hb1, hb2, hb3, hb4⟩ := balance_read' h1 h2 (hfin s.closingM).2 h.closing ha.closing
  have key : ∃ m, readTags L (s.tags.map Tag.bytes) {} false = .done m true ∧ HeldStatement L s m := by
    have et : s.tags.map Tag.bytes = Tag.bytes ⟨b!":20:", s.reference⟩ :: ((s.related.map fun r => (⟨b!":21:", r⟩ : Tag)).toList.map Tag.bytes ++
        Tag.bytes ⟨b!":25:", s.bank ++ b!"/" ++ s.account⟩ ::
        Tag.bytes ⟨b!":28C:", s.number ++ (s.sheet.map fun n => b!"/" ++ n).getD []⟩ ::
        Tag.bytes ⟨b!":60" ++ finality s.openingM ++ b!":", s.opening.text⟩ :: ((s.entries.flatMap Entry.tags).map Tag.bytes ++
        Tag.bytes ⟨b!":62" ++ finality s.closingM ++ b!":", s.closing.text⟩ ::
        ((s.current.map fun b => (⟨b!":64:", b.text⟩ : Tag)).toList.map Tag.bytes ++
        ((s.future.map fun b => (⟨b!":65:", b.text⟩ : Tag)).toList.map Tag.bytes ++
        (s.remark.map fun d => (⟨b!":86:", d.text⟩ : Tag)).toList.map Tag.bytes)))) := by
      unfold Statement.tags
      simp
    rw [et]
    rw [readTags_step (t := Tag.bytes ⟨b!":20:", s.reference⟩) job_step]
    have rel : ∀ ts, readTags L ((s.related.map fun r => (⟨b!":21:", r⟩ : Tag)).toList.map Tag.bytes ++ ts)
        { jobReference := some ⟨b!":20:", s.reference⟩ } false =
        readTags L ts { jobReference := some ⟨b!":20:", s.reference⟩, reference := s.related.map fun r => ⟨b!":21:", r⟩ } false := by
      intro ts
      cases s.related with
      | none => rfl
      | some r =>
        simp only [Option.map_some, Option.toList_some, List.map_cons, List.map_nil, List.cons_append, List.nil_append]
        exact readTags_step (t := Tag.bytes ⟨b!":21:", r⟩) reference_step
    rw [rel]
    rw [readTags_step (t := Tag.bytes ⟨b!":25:", s.bank ++ b!"/" ++ s.account⟩) (account_step h.bank.2 h.account.2)]
    have hn := number_step (L := L)
      (m := { jobReference := some ⟨b!":20:", s.reference⟩, reference := (s.related.map fun r => ⟨b!":21:", r⟩), account := some ⟨b!":25:", s.bank, s.account⟩ }) (o := false) h.number h.sheet
    rw [readTags_step (t := Tag.bytes ⟨b!":28C:", s.number ++ (s.sheet.map fun n => b!"/" ++ n).getD []⟩) hn]
    rw [readTags_step (t := Tag.bytes ⟨b!":60" ++ finality s.openingM ++ b!":", s.opening.text⟩) (opening_step ho1)]
    rw [hread]
    rw [readTags_step (t := Tag.bytes ⟨b!":62" ++ finality s.closingM ++ b!":", s.closing.text⟩) (closing_step hb1)]
    obtain ⟨m2, p2, r2⟩ := opt_step (L := L) (x := s.current) (f := fun b => ⟨b!":64:", b.text⟩) (o := false) (P := HeldStatement L s)
      (m := { jobReference := some ⟨b!":20:", s.reference⟩, reference := (s.related.map fun r => ⟨b!":21:", r⟩),
              account := some ⟨b!":25:", s.bank, s.account⟩,
              statementNumber := some ⟨b!":28C:", value s.number, (s.sheet.map fun x => (value x : Int)).getD 0⟩, startingBalance := some ob, transactions := [] ++ qs,
              closingBalance := some cb })
      ⟨⟨rfl, rfl, rfl⟩, rfl, ⟨ob, rfl, ho2, ho3, ho4⟩, ⟨cb, rfl, hb2, hb3, hb4⟩, hqs⟩
      (fun b hb => by
        obtain ⟨t, ht, _⟩ := balance_read' h1 h2 (id := b!"64") (by decide) (h.current b hb) (ha.current b hb)
        exact ⟨_, ⟨⟨rfl, rfl, rfl⟩, rfl, ⟨ob, rfl, ho2, ho3, ho4⟩, ⟨cb, rfl, hb2, hb3, hb4⟩, hqs⟩, current_step ht⟩)
    rw [r2]
    obtain ⟨m3, p3, r3⟩ := opt_step (L := L) (x := s.future) (f := fun b => ⟨b!":65:", b.text⟩) (o := false) (P := HeldStatement L s)
      (m := m2) p2
      (fun b hb => by
        obtain ⟨t, ht, _⟩ := balance_read' h1 h2 (id := b!"65") (by decide) (h.future b hb) (ha.future b hb)
        exact ⟨{ m2 with futureValutaBalance := some t }, ⟨⟨p2.head.job, p2.head.reference, p2.head.number⟩, p2.account, p2.opening, p2.closing, p2.transactions⟩, future_step ht⟩)
    rw [r3]
    obtain ⟨m4, p4, r4⟩ := opt_step (L := L) (x := s.remark) (f := fun d => ⟨b!":86:", d.text⟩) (o := false) (P := HeldStatement L s)
      (m := m3) p3
      (fun d hd => by
        obtain ⟨f, hf, _⟩ := description_read (h.remark d hd) (spareOf (b!":86:" ++ d.text))
        exact ⟨{ m3 with customField := some f }, ⟨⟨p3.head.job, p3.head.reference, p3.head.number⟩, p3.account, p3.opening, p3.closing, p3.transactions⟩, remark_step hf⟩)
    have := r4 []
    rw [List.append_nil] at this
    rw [this]
    exact ⟨m4, rfl, p4⟩
  obtain ⟨m, hm1, hm2⟩ := key
  refine ⟨m, ?_, hm2⟩
  unfold unmarshalMessage
  rw [hex]
  cases ht : s.tags.map Tag.bytes with
  | nil => simp [hne] at ht
  | cons a b => rw [← ht]; exact hm1

theorem reported_of {L : Lib} {s : Statement} {m : MT940 L.F} (h : HeldStatement L s m) :
    ∃ p, accountTransactions L m = .ok p ∧ List.Forall₂ (Reported L (L.year / 100 * 100) s) s.entries p := by
  obtain ⟨ob, ho1, ho2, ho3, ho4⟩ := h.opening
  obtain ⟨cb, hc1, hc2, hc3, hc4⟩ := h.closing
  have key : List.Forall₂ (Reported L (L.year / 100 * 100) s) s.entries
      (m.transactions.map (transactionOf L ⟨b!":25:", s.bank, s.account⟩ ob cb)) := by
    rw [List.forall₂_map_right_iff]
    refine h.transactions.imp ?_
    rintro e q ⟨hh, ht⟩
    refine ⟨rfl, rfl, ⟨_, hh.amount, ?_⟩, ho3, hh.valuta, hh.booking, ho4, ho2, hc4, hc3, hc2, ht.bookingText, ht.bankID, ht.accountID,
      ht.name, ?_, ?_, ht.transactionID⟩
    · unfold transactionOf
      simp only
      by_cases hn : Negative e
      · rw [if_pos hn, if_pos (hh.negative.2 hn)]
      · rw [if_neg hn, if_neg fun h0 => hn (hh.negative.1 h0)]
    · unfold transactionOf
      simp only
      rw [ht.purpose, joinLines_eq]
    · unfold transactionOf
      simp only
      rw [ht.purpose2, joinLines_eq]
  unfold accountTransactions
  rw [h.account]
  simp only
  by_cases he : m.transactions.isEmpty
  · rw [if_pos he]
    rw [List.isEmpty_iff] at he
    rw [he] at key
    exact ⟨[], rfl, by simpa using key⟩
  · rw [if_neg he, ho1, hc1]
    exact ⟨_, rfl, key⟩

/-- C100: statements that a bank writes one after the other are read without an error, and each
of their entries is reported, in order, with the account, dates, amount and texts that the
bank wrote. -/
theorem C100_statements {L : Lib} (h1 : 1000 ≤ L.year) (h2 : L.year ≤ 9999) {ss : List Statement} (hne : ss ≠ [])
    (h : ∀ s ∈ ss, s.Ok (L.year / 100 * 100) ∧ Amounts L s) (hc : ∀ s ∈ ss, ∀ e ∈ s.entries, ¬ Crash e.rest) :
    ∃ parts : List (List (Transaction L.F)), unmarshalMT940 L (ss.map Statement.text).flatten = .ok parts.flatten ∧
      List.Forall₂ (fun s p => List.Forall₂ (Reported L (L.year / 100 * 100) s) s.entries p) ss parts := by
  have hex : extractMessages (ss.map Statement.text).flatten = .ok (ss.map Statement.text) := by
    have := C38_messages_complete (msgs := ss.map Statement.tags) (by simpa using hne) (by
      simp only [List.mem_map, forall_exists_index, and_imp, forall_apply_eq_imp_iff₂]
      exact fun s hs => ⟨by simp [Statement.tags], statement_tags_ok (h s hs).1⟩)
    rw [List.map_map] at this
    exact this
  have key : ∃ parts : List (List (Transaction L.F)),
      List.Forall₂ (fun s p => (∃ mt, unmarshalMessage L (Statement.text s) = .done mt true ∧ accountTransactions L mt = .ok p) ∧
        List.Forall₂ (Reported L (L.year / 100 * 100) s) s.entries p) ss parts := by
    clear hne hex
    induction ss with
    | nil => exact ⟨[], .nil⟩
    | cons s ss ih =>
      obtain ⟨parts, ih⟩ := ih (fun x hx => h x (by simp [hx])) (fun x hx => hc x (by simp [hx]))
      obtain ⟨m, k1, k2⟩ := statement_read h1 h2 (h s (by simp)).1 (h s (by simp)).2 (hc s (by simp))
      obtain ⟨p, k3, k4⟩ := reported_of k2
      exact ⟨p :: parts, .cons ⟨⟨m, k1, k3⟩, k4⟩ ih⟩
  obtain ⟨parts, key⟩ := key
  refine ⟨parts, (C77_accepted hex _).2 ⟨parts, ?_, rfl⟩, key.imp fun _ _ h => h.2⟩
  rw [List.forall₂_map_left_iff]
  exact key.imp fun _ _ h => h.1

/-- C100: nothing about a reported transaction is left open. -/
theorem C100_determined {L : Lib} {c : Int} {s : Statement} {e : Entry} {x y : Transaction L.F} (hx : Reported L c s e x)
    (hy : Reported L c s e y) : x = y := by
  obtain ⟨a, ha1, ha2⟩ := hx.amount
  obtain ⟨b, hb1, hb2⟩ := hy.amount
  obtain rfl : a = b := by rw [ha1] at hb1; simpa using hb1
  have h1 : x.before = y.before := by have := hx.before.symm.trans hy.before; simpa using this
  have h2 : x.after = y.after := by have := hx.after.symm.trans hy.after; simpa using this
  have h3 := hx.bankCode.trans hy.bankCode.symm
  have h4 := hx.accountNumber.trans hy.accountNumber.symm
  have h5 := ha2.trans hb2.symm
  have h6 := hx.currency.trans hy.currency.symm
  have h7 := hx.valutaDate.trans hy.valutaDate.symm
  have h8 := hx.bookingDate.trans hy.bookingDate.symm
  have h9 := hx.beforeDate.trans hy.beforeDate.symm
  have h10 := hx.afterCurrency.trans hy.afterCurrency.symm
  have h11 := hx.afterDate.trans hy.afterDate.symm
  have h12 := hx.bookingText.trans hy.bookingText.symm
  have h13 := hx.otherBank.trans hy.otherBank.symm
  have h14 := hx.otherAccount.trans hy.otherAccount.symm
  have h15 := hx.name.trans hy.name.symm
  have h16 := hx.purpose.trans hy.purpose.symm
  have h17 := hx.purpose2.trans hy.purpose2.symm
  have h18 := hx.transactionID.trans hy.transactionID.symm
  cases x
  cases y
  simp only at h1 h2 h3 h4 h5 h6 h7 h8 h9 h10 h11 h12 h13 h14 h15 h16 h17 h18
  subst h1 h2 h3 h4 h5 h6 h7 h8 h9 h10 h11 h12 h13 h14 h15 h16 h17 h18
  rfl

/-- The statement with other marks of its balances before and after. -/
def Spec.Statement.marked (o c : Byte) (s : Statement) : Statement :=
  { s with opening := { s.opening with mark := o }, closing := { s.closing with mark := c } }

theorem forall₂_unique {α β : Type} {R S : α → β → Prop} : ∀ {as : List α} {bs cs : List β}, List.Forall₂ R as bs →
    List.Forall₂ S as cs → (∀ a b c, a ∈ as → R a b → S a c → c = b) → cs = bs
  | _, _, _, .nil, .nil, _ => rfl
  | _, _, _, .cons h hs, .cons k ks, H => by
    rw [H _ _ _ (by simp) h k, forall₂_unique hs ks fun a b c ha => H a b c (by simp [ha])]

theorem marked_reported {L : Lib} {y : Int} {s : Statement} {o c : Byte} {e : Entry} {x : Transaction L.F}
    (h : Reported L y (s.marked o c) e x) : Reported L y s e x :=
  ⟨h.bankCode, h.accountNumber, h.amount, h.currency, h.valutaDate, h.bookingDate, h.before, h.beforeDate, h.after, h.afterCurrency,
    h.afterDate, h.bookingText, h.otherBank, h.otherAccount, h.name, h.purpose, h.purpose2, h.transactionID⟩

/-- C100, what goes wrong: whether the account was overdrawn is not reported.  With other marks
of the balances the transactions are the same. -/
theorem C100_overdrawn {L : Lib} (h1 : 1000 ≤ L.year) (h2 : L.year ≤ 9999) {s : Statement} (h : s.Ok (L.year / 100 * 100))
    (ha : Amounts L s) (hc : ∀ e ∈ s.entries, ¬ Crash e.rest) {o c : Byte} (ho : o = 67 ∨ o = 68) (hcl : c = 67 ∨ c = 68) :
    unmarshalMT940 L (s.marked o c).text = unmarshalMT940 L s.text := by
  obtain ⟨p, k1, k2⟩ := C100_statements h1 h2 (ss := [s]) (by simp) (by simpa using ⟨h, ha⟩) (by simpa using hc)
  obtain ⟨q, k3, k4⟩ := C100_statements h1 h2 (ss := [s.marked o c]) (by simp)
    (by
      simp only [List.mem_singleton, forall_eq]
      exact ⟨⟨h.reference, h.related, h.bank, h.account, h.number, h.sheet,
        ⟨ho, h.opening.day, h.opening.currency, h.opening.whole, h.opening.frac⟩, h.entries,
        ⟨hcl, h.closing.day, h.closing.currency, h.closing.whole, h.closing.frac⟩, h.current, h.future, h.remark⟩,
        ⟨ha.opening, ha.closing, ha.current, ha.future, ha.entries⟩⟩)
    (by simp only [List.mem_singleton, forall_eq]; exact hc)
  have e1 : ([s].map Statement.text).flatten = s.text := by simp
  have e2 : ([s.marked o c].map Statement.text).flatten = (s.marked o c).text := by simp
  rw [e1] at k1
  rw [e2] at k3
  rw [k1, k3]
  have k4' : List.Forall₂ (fun s' p => List.Forall₂ (Reported L (L.year / 100 * 100) (s.marked o c)) s'.entries p) [s] q := by
    rw [List.forall₂_cons_left_iff] at k4 ⊢
    obtain ⟨b, u, m1, m2, m3⟩ := k4
    cases m2
    exact ⟨b, [], m1, .nil, m3⟩
  have hpq : q = p := forall₂_unique k2 k4' fun s' x y hs' hx hy => by
    obtain rfl : s' = s := by simpa using hs'
    exact forall₂_unique hx hy fun e x y _ hx hy => C100_determined (marked_reported hy) hx
  rw [hpq]

/-! ## A statement -/

theorem continues_iff (v : Bytes) : Continues v ↔ ∀ i < v.length, v[i]? = some 13 → v[i + 1]? = some 10 →
    v[i + 2]? ≠ some 58 ∧ v[i + 2]? ≠ some 45 := by
  constructor
  · intro h i hi h1 h2
    have key : ∀ x, v[i + 2]? = some x → x ≠ 58 ∧ x ≠ 45 := by
      intro x hx
      obtain ⟨l1, e1⟩ := List.getElem?_eq_some_iff.1 h1
      obtain ⟨l2, e2⟩ := List.getElem?_eq_some_iff.1 h2
      obtain ⟨l3, e3⟩ := List.getElem?_eq_some_iff.1 hx
      refine h (v.take i) x (v.drop (i + 3)) ?_
      conv_lhs => rw [← List.take_append_drop i v, List.drop_eq_getElem_cons l1, List.drop_eq_getElem_cons l2,
        List.drop_eq_getElem_cons l3, e1, e2, e3]
    exact ⟨fun h0 => (key 58 h0).1 rfl, fun h0 => (key 45 h0).2 rfl⟩
  · rintro h a x b rfl
    have := h a.length (by simp) (by simp) (by simp)
    simp at this
    exact this

instance (v : Bytes) : Decidable (Continues v) := decidable_of_iff _ (continues_iff v).symm

/-- A statement with two entries: a debit with booking date and description, and one without. -/
def sampleStatement : Statement where
  reference := b!"STARTUMS"
  related := none
  bank := b!"10010010"
  account := b!"1234567890"
  number := b!"00001"
  sheet := some b!"001"
  openingM := false
  opening := ⟨67, ⟨26, 1, 1⟩, b!"EUR", b!"1000", b!"00"⟩
  entries := [
    ⟨⟨26, 1, 2⟩, some (1, 3), b!"D", b!"R", b!"12", b!"50", b!"MSC", b!"NONREF//BANK\r\n/INFO",
      some ⟨b!"105", [(b!"?00", b!"LASTSCHRIFT"), (b!"?20", b!"SVWZ+Rent"), (b!"?21", b!"January"), (b!"?32", b!"LANDLORD")],
        [b!"?00LASTSCHRIFT?20SVWZ+Rent?2", b!"1January?32LANDLORD"]⟩⟩,
    ⟨⟨26, 1, 5⟩, some (1, 5), b!"C", [], b!"7", [], b!"TRF", b!"NONREF", none⟩]
  closingM := false
  closing := ⟨67, ⟨26, 1, 5⟩, b!"EUR", b!"994", b!"50"⟩
  current := some ⟨67, ⟨26, 1, 5⟩, b!"EUR", b!"994", b!"50"⟩
  future := none
  remark := none

section
local instance (b : Byte) : Decidable (Digit b) := by unfold Digit; infer_instance
local instance (b : Byte) : Decidable (Upper b) := by unfold Upper; infer_instance
local instance (v : Bytes) : Decidable (DigitString v) := by unfold DigitString; infer_instance
local instance (y : Int) (m d : Nat) : Decidable (ExistingDate y m d) := by
  unfold ExistingDate Element.Spec.LeapYear; infer_instance
local instance (c : Int) (d : Day) : Decidable (d.In c) := by unfold Day.In; infer_instance
local instance (v : Bytes) : Decidable (OneLine v) := by unfold OneLine; infer_instance

/-- The statement is one that a bank may write. -/
theorem sampleStatement_ok : sampleStatement.Ok 2000 where
  reference := by decide +kernel
  related := by simp [sampleStatement]
  bank := by decide +kernel
  account := by decide +kernel
  number := by decide +kernel
  sheet := by
    intro n hn
    obtain rfl : b!"001" = n := by simpa [sampleStatement] using hn
    decide +kernel
  opening := ⟨by decide +kernel, by decide +kernel, by decide +kernel, by decide +kernel, by decide +kernel⟩
  entries := by
    intro e he
    simp only [sampleStatement, List.mem_cons, List.not_mem_nil, or_false] at he
    rcases he with rfl | rfl
    · refine ⟨by decide +kernel, ?_, by decide +kernel, by decide +kernel, by decide +kernel, by decide +kernel, by decide +kernel, by decide +kernel, by decide +kernel, ?_⟩
      · intro m d h
        simp only [Option.some.injEq, Prod.mk.injEq] at h
        obtain ⟨rfl, rfl⟩ := h
        decide +kernel
      · intro d h
        simp only [Option.some.injEq] at h
        subst h
        refine ⟨by decide +kernel, by decide +kernel, by decide +kernel, ?_, by decide +kernel, by decide +kernel, by decide +kernel, ?_⟩
        · intro t ht
          simp [List.lookup] at ht
        · intro l ls h _
          simp only [List.cons.injEq] at h
          rw [← h.1]
          decide +kernel
    · refine ⟨by decide +kernel, ?_, by decide +kernel, by decide +kernel, by decide +kernel, by decide +kernel, by decide +kernel, by decide +kernel, by decide +kernel, by simp⟩
      intro m d h
      simp only [Option.some.injEq, Prod.mk.injEq] at h
      obtain ⟨rfl, rfl⟩ := h
      decide +kernel
  closing := ⟨by decide +kernel, by decide +kernel, by decide +kernel, by decide +kernel, by decide +kernel⟩
  current := by
    intro b hb
    simp only [sampleStatement, Option.some.injEq] at hb
    subst hb
    exact ⟨by decide +kernel, by decide +kernel, by decide +kernel, by decide +kernel, by decide +kernel⟩
  future := by simp [sampleStatement]
  remark := by simp [sampleStatement]

end

/-- Its amounts are numbers and its lines do not crash the parser. -/
theorem sampleStatement_amounts : Amounts sampleLib sampleStatement where
  opening := by decide
  closing := by decide
  current := by
    intro b hb
    simp only [sampleStatement, Option.some.injEq] at hb
    subst hb
    decide
  future := by simp [sampleStatement]
  entries := by decide

theorem sampleStatement_lines : ∀ e ∈ sampleStatement.entries, ¬ Crash e.rest := by
  intro e he
  simp only [sampleStatement, List.mem_cons, List.not_mem_nil, or_false] at he
  rcases he with rfl | rfl <;> intro hc <;> exact absurd ((references_iff _).2.2 hc) (by decide)

example : ∃ parts : List (List (Transaction sampleLib.F)),
    unmarshalMT940 sampleLib ([sampleStatement, sampleStatement].map Statement.text).flatten = .ok parts.flatten ∧
      List.Forall₂ (fun s p => List.Forall₂ (Reported sampleLib 2000 s) s.entries p) [sampleStatement, sampleStatement] parts :=
  C100_statements (by decide) (by decide) (by simp) (by
    intro s hs
    obtain rfl : s = sampleStatement := by simpa using hs
    exact ⟨sampleStatement_ok, sampleStatement_amounts⟩) (by
    intro s hs
    obtain rfl : s = sampleStatement := by simpa using hs
    exact sampleStatement_lines)

example : unmarshalMT940 sampleLib (sampleStatement.marked 68 68).text = unmarshalMT940 sampleLib sampleStatement.text :=
  C100_overdrawn (L := sampleLib) (by decide) (by decide) sampleStatement_ok sampleStatement_amounts sampleStatement_lines (.inr rfl) (.inr rfl)

/-- What is reported of the debit. -/
example {x : Transaction sampleLib.F} {e : Entry} (he : sampleStatement.entries[0]? = some e) (h : Reported sampleLib 2000 sampleStatement e x) :
    x.amount = b!"-12.50" ∧ x.bookingDate = ⟨2026, 1, 3, 0, 0, 0, 0⟩ ∧ x.purpose = c!"SVWZ+Rent January" ∧ x.name = c!"LANDLORD" := by
  simp only [sampleStatement, List.getElem?_cons_zero, Option.some.injEq] at he
  subst he
  obtain ⟨a, h1, h2⟩ := h.amount
  refine ⟨?_, h.bookingDate.trans (by decide), h.purpose.trans (by decide), h.name.trans (by decide)⟩
  rw [h2, if_pos (by decide)]
  have : some b!"12.50" = some a := h1
  exact (congrArg (fun x : Bytes => 45 :: x) (Option.some.inj this)).symm

end Verif.Swift

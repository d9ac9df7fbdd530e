import Verif.Client.CrashProps
import Verif.Bank.CalmProps

/-
C127: which answers of a bank, read by the program's own decoders, crash a call of the client.
-/

namespace Verif.Bank

open GoLib Element Element.Spec Segment Message Domain Dialog Client

/-! ## Specification -/

/-- A balance has the fields the client reads: the account, the name of the product, the currency and the booked balance, and
a date if it has a time. -/
structure WholeBalance {κ : Type} (s : BalanceSeg κ) : Prop where
  connection : s.connection ≠ none
  product : s.product ≠ none
  currency : s.currency ≠ none
  booked : s.booked ≠ none
  date : s.bookingTime ≠ none → s.bookingDate ≠ none

/-- An international account that names a bank names its country. -/
def CountryKnown (c : ReadInternational) : Prop := ∀ b, c.bank = some b → b.1 ≠ none

/-- A line of the status protocol has the fields the client reads. -/
structure WholeStatus (s : StatusSeg) : Prop where
  acknowledgement : s.acknowledgement ≠ none
  date : s.date ≠ none
  time : s.time ≠ none
  segment : s.message ≠ none → s.segment ≠ none

/-! ## Lemmas -/

theorem bookingDate_calm (d t : Option Time.Civil) : Bank.bookingDate d t ≠ .panic ↔ (t ≠ none → d ≠ none) := by
  cases d <;> cases t <;> simp [Bank.bookingDate, deref, Outcome.map']

theorem read_calm {κ μ : Type} (s : BalanceSeg κ) (conn : κ → Outcome μ) (he : ∀ c, conn c ≠ .err) (z : Option Amount) :
    s.read conn z ≠ .panic ↔ WholeBalance s ∧ ∀ c, s.connection = some c → conn c ≠ .panic := by
  have key : WholeBalance s ↔ s.connection ≠ none ∧ s.product ≠ none ∧ s.currency ≠ none ∧ s.booked ≠ none ∧
      Bank.bookingDate s.bookingDate s.bookingTime ≠ .panic := by
    rw [bookingDate_calm]
    exact ⟨fun h => ⟨h.1, h.2, h.3, h.4, h.5⟩, fun h => ⟨h.1, h.2.1, h.2.2.1, h.2.2.2.1, h.2.2.2.2⟩⟩
  rw [key]
  unfold BalanceSeg.read
  rcases h1 : s.connection with _ | c
  · simp [deref, Outcome.bind]
  · cases h2 : conn c with
    | err => exact absurd h2 (he c)
    | panic => simp [deref, Outcome.bind, h2]
    | ok v =>
      rcases h3 : s.product with _ | p <;> rcases h4 : s.currency with _ | q <;> rcases h5 : s.booked with _ | b <;>
        cases h6 : Bank.bookingDate s.bookingDate s.bookingTime <;> simp [deref, Outcome.bind, Outcome.map', h2]

theorem val_calm (c : ReadInternational) : c.val ≠ .panic ↔ CountryKnown c := by
  unfold ReadInternational.val CountryKnown
  rcases c.bank with _ | ⟨_ | n, i⟩ <;> simp

theorem val_err (c : ReadInternational) : c.val ≠ .err := by
  unfold ReadInternational.val
  split <;> simp

theorem national_calm (c : ReadInternational) : c.val.map' toAccountConnection ≠ .panic ↔ CountryKnown c := by
  rw [← val_calm]
  cases c.val <;> simp [Outcome.map']

theorem national_err (c : ReadInternational) : c.val.map' toAccountConnection ≠ .err := by
  have := val_err c
  cases h : c.val with
  | err => exact absurd h this
  | panic => simp [Outcome.map']
  | ok x => simp [Outcome.map']

theorem status_calm (now : Time.Civil) (s : StatusSeg) : s.status now ≠ .panic ↔ WholeStatus s := by
  have key : WholeStatus s ↔ s.acknowledgement ≠ none ∧ s.date ≠ none ∧ s.time ≠ none ∧ s.references ≠ .panic := by
    constructor
    · intro h
      refine ⟨h.1, h.2, h.3, ?_⟩
      unfold StatusSeg.references
      cases hm : s.message with
      | none => simp
      | some m =>
        have := h.4 (by simp [hm])
        cases hs : s.segment with
        | none => exact absurd hs this
        | some n => simp [deref, Outcome.map']
    · rintro ⟨h1, h2, h3, h4⟩
      refine ⟨h1, h2, h3, fun hm hs => h4 ?_⟩
      unfold StatusSeg.references
      cases hm' : s.message with
      | none => exact absurd hm' hm
      | some m => simp [deref, Outcome.map', hs]
  have hr : s.references ≠ .err := by
    unfold StatusSeg.references
    cases s.message with
    | none => simp
    | some m => cases s.segment <;> simp [deref, Outcome.map']
  rw [key]
  unfold StatusSeg.status
  rcases h1 : s.acknowledgement with _ | c <;> rcases h3 : s.date with _ | p <;> rcases h4 : s.time with _ | q <;>
    cases h6 : s.references <;> simp [deref, Outcome.bind, Outcome.map'] <;> exact absurd h6 hr

/-! ## C127 -/

/-- **C127** The segments HIKAZ of an answer read with the program's decoders crash AccountTransactions exactly if one has no
booked transactions. -/
theorem C127_statement {header : ReadHeader} {raw : Bytes} {m : Decrypted BankSeg} (h : newDecrypted decoders header raw = .ok m)
    (now : Time.Civil) : Unharmed (clientViews now).statement c!"HIKAZ" m ↔
      ∀ s, .other (.statement s) ∈ m.segments c!"HIKAZ" → s.booked ≠ none := by
  obtain ⟨_, e, hu⟩ := newDecrypted_parts h
  obtain ⟨_, _, _, _, _, _, _, t, _⟩ := C94_types hu
  constructor
  · intro hm s hs hn
    exact hm _ hs ((deref_panic _).2 hn)
  · intro hm y hy
    obtain ⟨s, hs⟩ := t _ hy
    cases hs
    exact fun hn => hm s hy ((deref_panic _).1 hn)

/-- **C127** The segments HISAL crash AccountBalances exactly if one lacks a field that the client reads; of an international
account this is also the country of the bank. -/
theorem C127_balance {header : ReadHeader} {raw : Bytes} {m : Decrypted BankSeg} (h : newDecrypted decoders header raw = .ok m)
    (now : Time.Civil) : Unharmed (clientViews now).balance c!"HISAL" m ↔
      (∀ s, .other (.balance s) ∈ m.segments c!"HISAL" → WholeBalance s) ∧
      ∀ s, .other (.internationalBalance s) ∈ m.segments c!"HISAL" → WholeBalance s ∧ ∀ c, s.connection = some c → CountryKnown c := by
  obtain ⟨_, e, hu⟩ := newDecrypted_parts h
  obtain ⟨_, _, _, _, _, _, _, _, t, _⟩ := C94_types hu
  have e1 : ∀ s : BalanceSeg AccountConnection, (clientViews now).balance (.balance s) ≠ .panic ↔ WholeBalance s := fun s =>
    (read_calm s .ok (by simp) none).trans (by simp)
  have e2 : ∀ s : BalanceSeg ReadInternational, (clientViews now).balance (.internationalBalance s) ≠ .panic ↔
      WholeBalance s ∧ ∀ c, s.connection = some c → CountryKnown c := fun s =>
    (read_calm s _ national_err none).trans (by simp only [national_calm])
  constructor
  · exact fun hm => ⟨fun s hs => (e1 s).1 (hm _ hs), fun s hs => (e2 s).1 (hm _ hs)⟩
  · rintro ⟨h1, h2⟩ y hy
    rcases t _ hy with ⟨s, hs⟩ | ⟨s, hs⟩ <;> cases hs
    · exact (e1 s).2 (h1 s hy)
    · exact (e2 s).2 (h2 s hy)

/-- **C127** The same for SepaAccountBalances, which looks at the international form only. -/
theorem C127_sepa_balance {header : ReadHeader} {raw : Bytes} {m : Decrypted BankSeg} (h : newDecrypted decoders header raw = .ok m)
    (now : Time.Civil) : Unharmed (clientViews now).sepaBalance c!"HISAL" m ↔
      ∀ s, .other (.internationalBalance s) ∈ m.segments c!"HISAL" → WholeBalance s ∧ ∀ c, s.connection = some c → CountryKnown c := by
  obtain ⟨_, e, hu⟩ := newDecrypted_parts h
  obtain ⟨_, _, _, _, _, _, _, _, t, _⟩ := C94_types hu
  have e2 : ∀ s : BalanceSeg ReadInternational, (clientViews now).sepaBalance (.internationalBalance s) ≠ .panic ↔
      WholeBalance s ∧ ∀ c, s.connection = some c → CountryKnown c := fun s =>
    (read_calm s _ val_err s.seizable).trans (by simp only [val_calm])
  constructor
  · exact fun hm s hs => (e2 s).1 (hm _ hs)
  · intro h2 y hy
    rcases t _ hy with ⟨s, hs⟩ | ⟨s, hs⟩ <;> cases hs
    · simp [clientViews]
    · exact (e2 s).2 (h2 s hy)

/-- **C127** The segments HIPRO crash Status exactly if one has no acknowledgement, date or time, or refers to a message but to
no segment of it. -/
theorem C127_line {header : ReadHeader} {raw : Bytes} {m : Decrypted BankSeg} (h : newDecrypted decoders header raw = .ok m)
    (now : Time.Civil) : (∀ x ∈ m.segments c!"HIPRO", viewOf (clientViews now).status x ≠ .panic) ↔
      ∀ s, .other (.status s) ∈ m.segments c!"HIPRO" → WholeStatus s := by
  obtain ⟨_, e, hu⟩ := newDecrypted_parts h
  obtain ⟨_, _, _, _, _, _, _, _, _, t, _⟩ := C94_types hu
  constructor
  · exact fun hm s hs => (status_calm now s).1 (hm _ hs)
  · intro hm x hx
    obtain ⟨s, rfl⟩ := t x hx
    exact (status_calm now s).2 (hm s hx)

/-! ## Examples -/

/-- An answer with these segments. -/
def calmAnswer (segs : Bytes) : Outcome (Decrypted BankSeg) := newDecrypted decoders openHeader (b!"HIRMG:2:2+0010::ok'" ++ segs)

/-- What the client would find. -/
def calmSeen (m : Decrypted BankSeg) : List Bool × List Bool × List Bool :=
  ((m.segments c!"HIKAZ").map fun x => match x with | .other (.statement s) => s.booked.isSome | _ => false,
   (m.segments c!"HISAL").map fun x => match x with
    | .other (.balance s) => s.connection.isSome && s.product.isSome && s.currency.isSome && s.booked.isSome && s.bookingTime.isNone
    | _ => false,
   (m.segments c!"HIPRO").map fun x => match x with
    | .other (.status s) => s.acknowledgement.isSome && s.date.isSome && s.time.isSome && s.segment.isSome | _ => false)

/-- Two statements, a balance and a line of the status protocol. -/
def calmGood : Bytes :=
  b!"HIKAZ:3:6:3+@3@abc'HIKAZ:4:6:3+@0@'HISAL:5:6:3+100::280:10000000+Giro+EUR+C:5,:EUR:20200101'HIPRO:6:4:3+dia:1+3+20200101+101112+0010::ok'"

-- None of the calls is crashed by this answer; two statements, one balance and one line stand in it.
example : ∃ m, calmAnswer calmGood = .ok m ∧ Unharmed (clientViews Time.zeroTime).statement c!"HIKAZ" m ∧
    (m.segments c!"HIKAZ").length = 2 := by
  have h : (calmAnswer calmGood).map' calmSeen = .ok ([true, true], [true], [true]) := by decide +kernel
  obtain ⟨m, hm, hs⟩ := map_ok_inv h
  have h1 := congrArg Prod.fst hs
  refine ⟨m, hm, (C127_statement hm _).2 fun s hs hn => ?_, by simpa [calmSeen] using (congrArg List.length h1).symm⟩
  have : false ∈ (calmSeen m).1 := List.mem_map.2 ⟨_, hs, by simp [hn]⟩
  rw [← h1] at this
  simp at this

example : ∃ m, calmAnswer calmGood = .ok m ∧ (∀ x ∈ m.segments c!"HIPRO", viewOf (clientViews Time.zeroTime).status x ≠ .panic) ∧
    (m.segments c!"HIPRO").length = 1 := by
  have h : (calmAnswer calmGood).map' calmSeen = .ok ([true, true], [true], [true]) := by decide +kernel
  obtain ⟨m, hm, hs⟩ := map_ok_inv h
  have h1 := congrArg (fun x => x.2.2) hs
  refine ⟨m, hm, (C127_line hm _).2 fun s hs => ?_, by simpa [calmSeen] using (congrArg List.length h1).symm⟩
  have : (s.acknowledgement.isSome && s.date.isSome && s.time.isSome && s.segment.isSome) ∈ (calmSeen m).2.2 := List.mem_map.2 ⟨_, hs, rfl⟩
  rw [← show [true] = (calmSeen m).2.2 from h1] at this
  simp only [List.mem_singleton, Bool.and_eq_true, Option.isSome_iff_ne_none] at this
  exact ⟨this.1.1.1, this.1.1.2, this.1.2, fun _ => this.2⟩

example : ∃ m, calmAnswer calmGood = .ok m ∧ Unharmed (clientViews Time.zeroTime).balance c!"HISAL" m ∧
    (m.segments c!"HISAL").length = 1 := by
  have h : (calmAnswer calmGood).map' calmSeen = .ok ([true, true], [true], [true]) := by decide +kernel
  obtain ⟨m, hm, hs⟩ := map_ok_inv h
  have h1 : [true] = (calmSeen m).2.1 := congrArg (fun x => x.2.1) hs
  refine ⟨m, hm, (C127_balance hm _).2 ⟨fun s hs => ?_, fun s hs => ?_⟩, by simpa [calmSeen] using (congrArg List.length h1).symm⟩
  · have : (s.connection.isSome && s.product.isSome && s.currency.isSome && s.booked.isSome && s.bookingTime.isNone) ∈
      (calmSeen m).2.1 := List.mem_map.2 ⟨_, hs, rfl⟩
    rw [← h1] at this
    simp only [List.mem_singleton, Bool.and_eq_true, Option.isSome_iff_ne_none, Option.isNone_iff_eq_none] at this
    exact ⟨this.1.1.1.1, this.1.1.1.2, this.1.1.2, this.1.2, fun h => absurd this.2 h⟩
  · have : false ∈ (calmSeen m).2.1 := List.mem_map.2 ⟨_, hs, rfl⟩
    rw [← h1] at this
    simp at this

-- A segment HIKAZ without transactions crashes the client.
example : ∃ m, calmAnswer b!"HIKAZ:3:6:3+'" = .ok m ∧ ¬ Unharmed (clientViews Time.zeroTime).statement c!"HIKAZ" m := by
  have h : (calmAnswer b!"HIKAZ:3:6:3+'").map' calmSeen = .ok ([false], [], []) := by decide +kernel
  obtain ⟨m, hm, hs⟩ := map_ok_inv h
  refine ⟨m, hm, fun hu => ?_⟩
  have hp := (C127_statement hm _).1 hu
  have h1 : false ∈ (calmSeen m).1 := by rw [← hs]; simp
  obtain ⟨x, hx, hb⟩ := List.mem_map.1 h1
  obtain ⟨_, e, hu⟩ := newDecrypted_parts hm
  obtain ⟨_, _, _, _, _, _, _, t, _⟩ := C94_types hu
  obtain ⟨s, rfl⟩ := t x hx
  simp only [Option.isSome_eq_false_iff, Option.isNone_iff_eq_none] at hb
  exact hp s hx hb

end Verif.Bank

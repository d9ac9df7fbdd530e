import Verif.Bank.CarryLemmas
import Verif.Bank.Views
import Verif.TimeArithLemmas

/-
C58: what the caller gets from the bank's balance segments; and HIPRO's time of transmission.
-/

namespace Verif.Bank

open GoLib Element Element.Spec Segment Message Domain

/-! ## Vocabulary -/

/-- What a caller sees through `view` of the segment `m` that carries this ID and version. -/
def seen {β : Type} (view : BankSeg → Outcome β) (id : Str) (version : Int) (m : Bytes) : Outcome β :=
  match decoders id version with
  | none => .err
  | some f => (f m).bind view

/-- `x` is the time of day of `t` on the day `k` days after that of `d`. -/
def OnDay (d : Time.Civil) (k : Int) (t x : Time.Civil) : Prop :=
  ExistingDate x.year x.month x.day ∧
    Swift.Spec.dayNumber x.year x.month x.day = Swift.Spec.dayNumber d.year d.month d.day + k ∧
    x.hour = t.hour ∧ x.min = t.min ∧ x.sec = t.sec ∧ x.nsec = t.nsec

/-- There is one such time. -/
theorem onDay_unique {d t x y : Time.Civil} {k : Int} (ht : TimeOfDay t.hour t.min t.sec) (hn : t.nsec < 1000000000)
    (hx : OnDay d k t x) (hy : OnDay d k t y) : x = y := by
  have hex : ∀ z, OnDay d k t z → Time.Exists z ∧ Time.instant z =
      ((Swift.Spec.dayNumber d.year d.month d.day + k - 1) * 86400 + t.hour * 3600 + t.min * 60 + t.sec) * 1000000000 + t.nsec := by
    rintro z ⟨h1, h2, h3, h4, h5, h6⟩
    have h1' := (existing_iff _ _ _).1 h1
    obtain ⟨⟨a1, a2⟩, a3, a4⟩ := h1'
    obtain ⟨b1, b2, b3⟩ := ht
    refine ⟨⟨by omega, by omega, by omega, by omega, by omega, by omega, by omega, by omega⟩, ?_⟩
    unfold Time.instant
    rw [Time.days_eq _ (by omega) (by omega), h2, h3, h4, h5, h6]
  obtain ⟨h1, h2⟩ := hex x hx
  obtain ⟨h3, h4⟩ := hex y hy
  exact Time.instant_inj h1 h3 (h2.trans h4.symm)

/-- Adding whole days and a time of day to midnight. -/
theorem add_onDay {d t : Time.Civil} {k n : Int} (hd : ExistingDate d.year d.month d.day)
    (h0 : d.hour = 0 ∧ d.min = 0 ∧ d.sec = 0 ∧ d.nsec = 0) (ht : TimeOfDay t.hour t.min t.sec) (hn : t.nsec < 1000000000)
    (h : n = (k * 86400 + t.hour * 3600 + t.min * 60 + t.sec) * 1000000000 + t.nsec) : OnDay d k t (Time.add d n) := by
  have hd' := (existing_iff _ _ _).1 hd
  obtain ⟨h1, h2⟩ := Time.civil_spec (Time.instant d + n)
  unfold Time.add
  generalize Time.civil (Time.instant d + n) = x at h1 h2
  obtain ⟨c1, c2, c3, c4, c5, c6, c7, c8⟩ := h1
  have hx : ExistingDate x.year x.month x.day := (existing_iff _ _ _).2 ⟨⟨c1, c2⟩, c3, c4⟩
  unfold Time.instant at h2
  rw [Time.days_eq _ c1 c2, Time.days_eq _ (by omega) (by omega), h0.1, h0.2.1, h0.2.2.1, h0.2.2.2] at h2
  unfold OnDay
  generalize Swift.Spec.dayNumber x.year x.month x.day = X at h2 ⊢
  generalize Swift.Spec.dayNumber d.year d.month d.day = D at h2 ⊢
  obtain ⟨b1, b2, b3⟩ := ht
  have e1 : x.nsec = t.nsec := by omega
  have e2 : (X - 1) * 86400 + x.hour * 3600 + x.min * 60 + x.sec =
      (D - 1) * 86400 + (k * 86400 + t.hour * 3600 + t.min * 60 + t.sec) := by omega
  refine ⟨hx, by omega, by omega, by omega, by omega, e1⟩

/-! ## Reports -/

/-- A balance as a bank reports it. -/
structure Report (κ : Type) where
  account : κ
  product : Str
  currency : Str
  booked : Amount × Time.Civil × Bool
  earmarked : Option (Amount × Time.Civil × Bool)
  creditLimit : Option Amount
  available : Option Amount
  used : Option Amount
  date : Option Time.Civil
  time : Option Time.Civil
  due : Option Time.Civil

/-- The elements of /repo/segment/account_balance.go:205-218, :281-294 and :357-370; version 8
(:468-482) has one more. -/
def Report.elements {κ : Type} (conn : κ → DE) (r : Report κ) : List (Option DE) :=
  [some (conn r.account), some (.alnum r.product 35), some (.currency r.currency 3),
   some (balanceDE r.booked.1 r.booked.2.1 r.booked.2.2), r.earmarked.map fun x => balanceDE x.1 x.2.1 x.2.2,
   r.creditLimit.map amountDE, r.available.map amountDE, r.used.map amountDE, r.date.map .date, r.time.map .time,
   r.due.map .date]

/-- The values of a report survive the wire (C60, C62, C70, C71 and C10 say which do). -/
structure Report.Good {κ : Type} (conn : κ → Prop) (r : Report κ) : Prop where
  account : conn r.account
  product : r.product ≠ []
  currency : r.currency ≠ []
  booked : GoodBalance r.booked.1 r.booked.2.1
  earmarked : ∀ x, r.earmarked = some x → GoodBalance x.1 x.2.1
  creditLimit : ∀ a, r.creditLimit = some a → GoodAmount a
  available : ∀ a, r.available = some a → GoodAmount a
  used : ∀ a, r.used = some a → GoodAmount a
  date : ∀ t, r.date = some t → Day t
  time : ∀ t, r.time = some t → TimeOfDay t.hour t.min t.sec
  due : ∀ t, r.due = some t → Day t

/-- The fields the caller gets, apart from the booking date. -/
def Report.Shown {κ μ : Type} (r : Report κ) (account : μ) (seizable : Option Amount) (b : AccountBalance μ) : Prop :=
  b.account = account ∧ b.product = r.product ∧ b.currency = r.currency ∧
    b.booked = balanceRead r.booked.1 r.booked.2.1 r.booked.2.2 ∧
    b.earmarked = (r.earmarked.map fun x => balanceRead x.1 x.2.1 x.2.2) ∧
    b.creditLimit = r.creditLimit ∧ b.available = r.available ∧ b.used = r.used ∧ b.dueDate = r.due.map midnight ∧
    b.seizable = seizable

/-- The booking date the caller gets: the transmitted date, or if there is a time as well the
time of day 366 days before that date. -/
def Report.Booked {κ : Type} (r : Report κ) (x : Option Time.Civil) : Prop :=
  match r.date, r.time with
  | none, _ => x = none
  | some d, none => x = some (midnight d)
  | some d, some t => ∃ y, x = some y ∧ OnDay d (-366) { t with nsec := 0 } y

/-- The result a caller gets for a report. -/
def Report.Result {κ μ : Type} (r : Report κ) (account : μ) (seizable : Option Amount)
    (o : Outcome (AccountBalance μ)) : Prop :=
  (r.time.isSome ∧ r.date = none ∧ o = .panic) ∨
  (¬ (r.time.isSome ∧ r.date = none) ∧ ∃ b, o = .ok b ∧ r.Shown account seizable b ∧ r.Booked b.bookingDate)

theorem map_ok_cons {es : List (Option DE)} {e : Option DE} {ps : List Bytes}
    (h : (e :: es).map DE.marshalOpt = ps.map .ok) :
    ∃ p qs, ps = p :: qs ∧ DE.marshalOpt e = .ok p ∧ es.map DE.marshalOpt = qs.map .ok := by
  cases ps with
  | nil => simp at h
  | cons p qs =>
    simp only [List.map_cons, List.cons.injEq] at h
    exact ⟨p, qs, rfl, h.1, h.2⟩

theorem bookingDate_eq {d t : Time.Civil} (hd : Day d) (ht : TimeOfDay t.hour t.min t.sec) :
    ∃ y, Bank.bookingDate (some (midnight d)) (some ⟨0, 1, 1, t.hour, t.min, t.sec, 0⟩) = .ok (some y) ∧
      OnDay d (-366) { t with nsec := 0 } y := by
  refine ⟨_, rfl, ?_⟩
  have := add_onDay (d := midnight d) (t := { t with nsec := 0 }) (k := -366)
    (n := Time.sub ⟨0, 1, 1, t.hour, t.min, t.sec, 0⟩ Time.zeroTime) hd.2.2 ⟨rfl, rfl, rfl, rfl⟩ ht (by simp) ?_
  · exact this
  · obtain ⟨b1, b2, b3⟩ := ht
    have e1 : Time.daysBeforeYear 0 = -366 := by decide
    have e2 : Time.daysBeforeYear 1 = 0 := by decide
    have e3 : ∀ y, Time.daysBeforeMonth y 1 = 0 := fun _ => rfl
    unfold Time.sub Time.instant Time.zeroTime
    simp only [e1, e2, e3]
    omega

/-- The first ten fields of a balance segment, read. -/
theorem balanceHead_read {κ ρ : Type} {es : List (Option DE)} {conn : κ → DE} {r : Report κ}
    {read : Bytes → Outcome ρ} {a : ρ} {good : κ → Prop} (hg : r.Good good) {hb : Bytes} {ps out : List Bytes}
    (hps : (r.elements conn ++ es).map DE.marshalOpt = ps.map .ok) (hd : DropTrailing (hb :: ps) out)
    (hlen : ∀ p ∈ ps, p.length < 2 ^ 62)
    (hc : ∀ p, (conn r.account).marshal = .ok p → p.length < 2 ^ 62 → field [p] 0 read = .ok (some a))
    (h : Header) (k : (Option Time.Civil → Option Amount → BalanceSeg ρ) → Outcome (BalanceSeg ρ)) :
    balanceHead h out read k =
      k (BalanceSeg.mk h (some a) (some r.product) (some r.currency)
        (some (balanceRead r.booked.1 r.booked.2.1 r.booked.2.2)) (r.earmarked.map fun x => balanceRead x.1 x.2.1 x.2.2)
        r.creditLimit r.available r.used (r.date.map midnight) (r.time.map fun t => ⟨0, 1, 1, t.hour, t.min, t.sec, 0⟩)) ∧
    field (hb :: ps) 11 unmarshalDate = .ok (r.due.map midnight) := by
  simp only [Report.elements, List.cons_append, List.nil_append] at hps
  obtain ⟨p1, q, rfl, m1, hps⟩ := map_ok_cons hps
  obtain ⟨p2, q, rfl, m2, hps⟩ := map_ok_cons hps
  obtain ⟨p3, q, rfl, m3, hps⟩ := map_ok_cons hps
  obtain ⟨p4, q, rfl, m4, hps⟩ := map_ok_cons hps
  obtain ⟨p5, q, rfl, m5, hps⟩ := map_ok_cons hps
  obtain ⟨p6, q, rfl, m6, hps⟩ := map_ok_cons hps
  obtain ⟨p7, q, rfl, m7, hps⟩ := map_ok_cons hps
  obtain ⟨p8, q, rfl, m8, hps⟩ := map_ok_cons hps
  obtain ⟨p9, q, rfl, m9, hps⟩ := map_ok_cons hps
  obtain ⟨p10, q, rfl, m10, hps⟩ := map_ok_cons hps
  obtain ⟨p11, q, rfl, m11, hps⟩ := map_ok_cons hps
  simp only [List.forall_mem_cons] at hlen
  obtain ⟨l1, l2, l3, l4, l5, l6, l7, l8, l9, l10, l11, _⟩ := hlen
  have f1 := hc p1 m1 l1
  have f2 := carries_text (mk := (.alnum · 35)) (fun s => rfl) (some r.product) p2 m2 l2
  have f3 := carries_text (mk := (.currency · 3)) (fun s => rfl) (some r.currency) p3 m3 l3
  have f4 := carries_balance (o := some r.booked) (fun x hx => by cases hx; exact hg.booked) p4 m4 l4
  have f5 := carries_balance hg.earmarked p5 m5 l5
  have f6 := carries_amount hg.creditLimit p6 m6 l6
  have f7 := carries_amount hg.available p7 m7 l7
  have f8 := carries_amount hg.used p8 m8 l8
  have f9 := carries_date hg.date p9 m9 l9
  have f10 := carries_time hg.time p10 m10 l10
  have f11 := carries_date hg.due p11 m11 l11
  have fl : ∀ {α : Type} (i : Nat) (p : Bytes) (f : Bytes → Outcome α) (xs : List Bytes), xs[i]? = some p →
      field xs i f = field [p] 0 f := by
    intro α i p f xs hx
    unfold field
    rw [hx]
    rfl
  simp only [Option.filter, hg.product, hg.currency, ne_eq, not_false_eq_true, decide_true, if_true] at f2 f3
  refine ⟨?_, by rw [fl 11 p11 _ _ rfl]; exact f11⟩
  unfold balanceHead
  rw [field_drop hd, fl 1 p1 _ _ rfl, f1]; dsimp only [Outcome.bind]
  rw [field_drop hd, fl 2 p2 _ _ rfl, f2]; dsimp only [Outcome.bind]
  rw [field_drop hd, fl 3 p3 _ _ rfl, f3]; dsimp only [Outcome.bind]
  rw [field_drop hd, fl 4 p4 _ _ rfl, f4]; dsimp only [Outcome.bind]
  rw [field_drop hd, fl 5 p5 _ _ rfl, f5]; dsimp only [Outcome.bind]
  rw [field_drop hd, fl 6 p6 _ _ rfl, f6]; dsimp only [Outcome.bind]
  rw [field_drop hd, fl 7 p7 _ _ rfl, f7]; dsimp only [Outcome.bind]
  rw [field_drop hd, fl 8 p8 _ _ rfl, f8]; dsimp only [Outcome.bind]
  rw [field_drop hd, fl 9 p9 _ _ rfl, f9]; dsimp only [Outcome.bind]
  rw [field_drop hd, fl 10 p10 _ _ rfl, f10]; dsimp only [Outcome.bind]
  rfl

theorem read_result {κ μ ρ : Type} {r : Report κ} {good : κ → Prop} (hg : r.Good good) {val : ρ → Outcome μ} {a : ρ} {x : μ}
    (hv : val a = .ok x) (h : Header) (seizable : Option Amount) :
    r.Result x seizable ((BalanceSeg.mk h (some a) (some r.product) (some r.currency)
        (some (balanceRead r.booked.1 r.booked.2.1 r.booked.2.2)) (r.earmarked.map fun x => balanceRead x.1 x.2.1 x.2.2)
        r.creditLimit r.available r.used (r.date.map midnight) (r.time.map fun t => ⟨0, 1, 1, t.hour, t.min, t.sec, 0⟩)
        (r.due.map midnight) seizable).read val seizable) := by
  unfold BalanceSeg.read
  simp only [deref, hv, Outcome.bind]
  cases ht : r.time with
  | none =>
    refine Or.inr ⟨by simp [ht], _, rfl, ⟨rfl, rfl, rfl, rfl, rfl, rfl, rfl, rfl, rfl, rfl⟩, ?_⟩
    unfold Report.Booked
    rw [ht]
    cases r.date <;> rfl
  | some t =>
    cases hd : r.date with
    | none => exact Or.inl ⟨by simp [ht], hd, rfl⟩
    | some d =>
      obtain ⟨y, h1, h2⟩ := bookingDate_eq (hg.date d hd) (hg.time t ht)
      simp only [Option.map_some, h1, Outcome.map']
      refine Or.inr ⟨by simp [ht, hd], _, rfl, ⟨rfl, rfl, rfl, rfl, rfl, rfl, rfl, rfl, rfl, rfl⟩, ?_⟩
      unfold Report.Booked
      rw [ht, hd]
      exact ⟨y, rfl, h2⟩

/-! ## C58: balances -/

/-- C58: the balance in a segment of version 5 or 6.  Every field is the transmitted one, but if
a booking time is transmitted the booking date lies 366 days before the transmitted date; a time
without a date panics. -/
theorem C58_national {r : Report AccountConnection} {h : Header} {m : Bytes} {v : Int} (now : Time.Civil)
    (hv : v = 5 ∨ v = 6) (hw : Written ⟨h, r.elements accountConnectionDE⟩ m) (hg : r.Good GoodConnection) :
    r.Result r.account none (seen (clientViews now).balance c!"HISAL" v m) := by
  obtain ⟨hb, ps, out, h1, h2, h3, h4⟩ := generated_written hw
  have hlen : ps.length = 11 := by
    have := congrArg List.length h1
    simpa [Report.elements] using this.symm
  obtain ⟨e1, e2⟩ := balanceHead_read (es := []) (read := unmarshalAccountConnection) (a := r.account) hg
    (by simpa using h1) h2 h3
    (fun p hp hl => carries_connection (o := some r.account) (fun c hc => by cases hc; exact hg.account) p hp hl) h
    fun seg => (lastField out 11 unmarshalDate).map' fun due => seg due none
  have hs : seen (clientViews now).balance c!"HISAL" v m =
      ((unmarshalBalanceSeg unmarshalAccountConnection m).map' BankSeg.balance).bind (clientViews now).balance := by
    rcases hv with rfl | rfl <;> rfl
  rw [hs]
  unfold unmarshalBalanceSeg
  rw [h4, e1, lastField_drop h2 (by simp [hlen]), e2]
  exact read_result hg (val := fun c => .ok c) rfl h none

/-- C58: the balance in a segment of version 7, for a national account. -/
theorem C58_international {r : Report InternationalConnection} {h : Header} {m : Bytes} (now : Time.Civil)
    (hw : Written ⟨h, r.elements internationalDE⟩ m) (hg : r.Good GoodInternational) :
    r.Result (AccountConnection.mk r.account.accountID r.account.sub r.account.country r.account.bankID) none
      (seen (clientViews now).balance c!"HISAL" 7 m) ∧
    r.Result r.account none (seen (clientViews now).sepaBalance c!"HISAL" 7 m) := by
  obtain ⟨hb, ps, out, h1, h2, h3, h4⟩ := generated_written hw
  have hlen : ps.length = 11 := by
    have := congrArg List.length h1
    simpa [Report.elements] using this.symm
  obtain ⟨a, ha, hc⟩ := carries_international hg.account
  obtain ⟨e1, e2⟩ := balanceHead_read (es := []) (read := readInternational) (a := a) hg (by simpa using h1) h2 h3 hc h
    fun seg => (lastField out 11 unmarshalDate).map' fun due => seg due none
  have hs : ∀ β (view : BankSeg → Outcome β), seen view c!"HISAL" 7 m =
      ((unmarshalBalanceSeg readInternational m).map' BankSeg.internationalBalance).bind view := fun _ _ => rfl
  rw [hs, hs]
  unfold unmarshalBalanceSeg
  rw [h4, e1, lastField_drop h2 (by simp [hlen]), e2]
  refine ⟨read_result hg (val := fun c : ReadInternational => c.val.map' toAccountConnection) ?_ h none, read_result hg ha h none⟩
  rw [ha]
  rfl

/-- C58: version 8, which adds the amount that cannot be seized; it is left out for a national
account. -/
theorem C58_seizable {r : Report InternationalConnection} {s : Option Amount} {h : Header} {m : Bytes} (now : Time.Civil)
    (hw : Written ⟨h, r.elements internationalDE ++ [s.map amountDE]⟩ m) (hg : r.Good GoodInternational)
    (hs : ∀ a, s = some a → GoodAmount a) :
    r.Result (AccountConnection.mk r.account.accountID r.account.sub r.account.country r.account.bankID) none
      (seen (clientViews now).balance c!"HISAL" 8 m) ∧
    r.Result r.account s (seen (clientViews now).sepaBalance c!"HISAL" 8 m) := by
  obtain ⟨hb, ps, out, h1, h2, h3, h4⟩ := generated_written hw
  have hlen : ps.length = 12 := by
    have := congrArg List.length h1
    simpa [Report.elements] using this.symm
  obtain ⟨a, ha, hc⟩ := carries_international hg.account
  obtain ⟨e1, e2⟩ := balanceHead_read (es := [s.map amountDE]) (read := readInternational) (a := a) hg h1 h2 h3 hc h
    fun seg => (field out 11 unmarshalDate).bind fun due => (lastField out 12 unmarshalAmount).map' fun s => seg due s
  have hsn : ∀ β (view : BankSeg → Outcome β), seen view c!"HISAL" 8 m =
      ((unmarshalBalanceSegV8 m).map' BankSeg.internationalBalance).bind view := fun _ _ => rfl
  have e3 : field (hb :: ps) 12 unmarshalAmount = .ok s := by
    obtain ⟨init, p, rfl⟩ : ∃ init p, ps = init ++ [p] := by
      rcases List.eq_nil_or_concat ps with rfl | ⟨i, x, rfl⟩
      · simp at hlen
      · exact ⟨i, x, by simp⟩
    have hi : init.length = 11 := by simpa using hlen
    have hp : DE.marshalOpt (s.map amountDE) = .ok p := by
      have := congrArg List.getLast? h1
      simpa [Report.elements] using this
    have hx : (hb :: (init ++ [p]))[12]? = some p := by
      rw [show (12 : Nat) = 11 + 1 from rfl, List.getElem?_cons_succ, List.getElem?_append_right (by omega), hi]
      rfl
    have := carries_amount hs p hp (h3 p (by simp))
    unfold field at this ⊢
    rw [hx]
    exact this
  rw [hsn, hsn]
  unfold unmarshalBalanceSegV8
  rw [h4, e1, field_drop h2, e2]
  simp only [Outcome.bind]
  rw [lastField_drop h2 (by simp [hlen]), e3]
  refine ⟨?_, read_result hg ha h s⟩
  have := read_result hg (val := fun c : ReadInternational => c.val.map' toAccountConnection)
    (show a.val.map' toAccountConnection = .ok (toAccountConnection r.account) by rw [ha]; rfl) h none
  exact this

/-- C58: versions 5 and 6 never give a SEPA balance: if the segment can be read, the client
reports an error. -/
theorem C58_no_sepa {m : Bytes} {v : Int} (now : Time.Civil) (hv : v = 5 ∨ v = 6)
    (x : AccountBalance InternationalConnection) : seen (clientViews now).sepaBalance c!"HISAL" v m ≠ .ok x := by
  have hs : seen (clientViews now).sepaBalance c!"HISAL" v m =
      ((unmarshalBalanceSeg unmarshalAccountConnection m).map' BankSeg.balance).bind (clientViews now).sepaBalance := by
    rcases hv with rfl | rfl <;> rfl
  rw [hs]
  cases unmarshalBalanceSeg unmarshalAccountConnection m <;> simp [Outcome.map', Outcome.bind, clientViews]

/-- C58: hence the date of a booking with a time is always wrong: it lies in an earlier year. -/
theorem C58_wrong_year {κ : Type} {r : Report κ} {d t x : Time.Civil} (hd : r.date = some d) (ht : r.time = some t)
    (he : ExistingDate d.year d.month d.day) (hx : r.Booked (some x)) : x.year < d.year := by
  unfold Report.Booked at hx
  rw [hd, ht] at hx
  obtain ⟨y, hy, h1, h2, _⟩ := hx
  cases hy
  obtain ⟨⟨a1, a2⟩, a3, a4⟩ := (existing_iff _ _ _).1 h1
  obtain ⟨⟨b1, b2⟩, b3, b4⟩ := (existing_iff _ _ _).1 he
  have e1 := Time.days_eq x.year (d := x.day) a1 a2
  have e2 := Time.days_eq d.year (d := d.day) b1 b2
  have e3 := Time.daysBeforeMonth_mono d.year b1 (show d.month < 13 by omega)
  rw [Time.daysBeforeMonth_thirteen] at e3
  have e4 : (if Time.isLeap d.year = true then 366 else 365) ≤ 366 := by split <;> omega
  by_contra hlt
  have e5 : Time.daysBeforeYear d.year ≤ Time.daysBeforeYear x.year := by
    rcases eq_or_lt_of_le (not_lt.1 hlt) with h | h
    · rw [h]
    · have := Time.daysBeforeYear_mono h
      split at this <;> omega
  omega

/-- A usual report of version 6 with date and time: all hypotheses hold, and the booking of
1 March 2024 at 10:30 is reported for 1 March 2023. -/
def sampleReport : Report AccountConnection :=
  ⟨⟨c!"123456", [], 280, c!"10020030"⟩, c!"Girokonto", c!"EUR", (⟨⟨true, 12, b!"5"⟩, c!"EUR"⟩, ⟨2024, 3, 1, 0, 0, 0, 0⟩, false),
   none, some ⟨⟨false, 500, []⟩, c!"EUR"⟩, none, none, some ⟨2024, 3, 1, 0, 0, 0, 0⟩, some ⟨0, 1, 1, 10, 30, 0, 0⟩, none⟩

/-- The segment a bank sends for it. -/
def sampleBalance : Bytes :=
  b!"HISAL:5:6:3+123456::280:10020030+Girokonto+EUR+D:12,5:EUR:20240301++500,:EUR+++20240301+103000'"

theorem canonical_of {x : Dec} (h : (x.frac.all fun b => decide (48 ≤ b.toNat ∧ b.toNat ≤ 57)) = true)
    (h2 : x.frac.getLast? ≠ some 48) : x.Canonical := by
  refine ⟨fun b hb => ?_, h2⟩
  have := List.all_eq_true.1 h b hb
  simpa [Verif.Token.Spec.Digit] using this

theorem day_2024 : Day ⟨2024, 3, 1, 0, 0, 0, 0⟩ := ⟨by decide, by decide, by unfold ExistingDate LeapYear; decide⟩

theorem sampleReport_plain : ∀ e, some e ∈ sampleReport.elements accountConnectionDE → Plain e := by
  rw [← plainAll_iff]
  simp only [sampleReport, Report.elements, accountConnectionDE, balanceDE, amountDE, Option.map, PlainAll, PlainOpt, Plain,
    and_true, true_and, Bool.false_eq_true, if_false]
  refine ⟨⟨?_, ?_, ?_⟩, ?_, ?_, ⟨?_, ?_, ?_⟩, ?_, ?_⟩
  all_goals first
    | exact plainText_of (by decide) (by decide) (by decide) (by decide)
    | exact canonical_of (by decide) (by decide)

theorem sampleReport_good : sampleReport.Good GoodConnection := by
  refine ⟨⟨sendable_of (by decide) (by decide), sendable_of (by decide) (by decide), sendable_of (by decide) (by decide),
      by unfold IsInt; decide, by decide, by decide⟩, by decide, by decide,
    ⟨canonical_of (by decide) (by decide), by unfold Dec.NotNegZero; decide, sendable_of (by decide) (by decide),
      ⟨by decide, by decide⟩, day_2024, ⟨by decide, by decide, by decide⟩⟩, ?_, ?_, ?_, ?_, ?_, ?_, ?_⟩
  · intro x hx; cases hx
  · intro x hx; cases hx
    exact ⟨canonical_of (by decide) (by decide), sendable_of (by decide) (by decide), by decide, by decide, by decide, by decide⟩
  · intro x hx; cases hx
  · intro x hx; cases hx
  · intro x hx; cases hx; exact day_2024
  · intro x hx; cases hx; exact ⟨by decide, by decide, by decide⟩
  · intro x hx; cases hx

example : Written ⟨⟨c!"HISAL", 5, 6, some 3⟩, sampleReport.elements accountConnectionDE⟩ sampleBalance ∧
    sampleReport.Good GoodConnection ∧
    seen (clientViews Time.zeroTime).balance c!"HISAL" 6 sampleBalance =
      .ok ⟨⟨c!"123456", [], 280, c!"10020030"⟩, c!"Girokonto", c!"EUR",
        ⟨⟨⟨true, 12, b!"5"⟩, c!"EUR"⟩, ⟨2024, 3, 1, 0, 0, 0, 0⟩, none⟩, none, some ⟨⟨false, 500, []⟩, c!"EUR"⟩, none, none,
        some ⟨2023, 3, 1, 10, 30, 0, 0⟩, none, none⟩ ∧
    seen (clientViews Time.zeroTime).balance c!"HISAL" 6
      b!"HISAL:5:6:3+123456::280:10020030+Girokonto+EUR+D:12,5:EUR:20240301++++++103000'" = .panic := by
  refine ⟨written_of_plain rfl (by decide) (by decide) (by unfold IsInt; decide) (by unfold IsInt; decide) ?_ sampleReport_plain
    (by decide), sampleReport_good, by decide +kernel, by decide +kernel⟩
  rintro r hr; cases hr; unfold IsInt; decide

end Verif.Bank

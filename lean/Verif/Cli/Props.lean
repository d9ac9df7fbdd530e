import Verif.Cli.Model
import Verif.Bank.FirstProps
import Verif.Client.Props
import Verif.Client.BalanceProps
import Verif.Client.NewProps
import Verif.Iban.Props
import Verif.Domain.PrintedProps
import Verif.Message.ReferenceProps
import Verif.TimeArithLemmas

/-
C110: the command line.
-/

namespace Verif.Cli

open Element Element.Spec Segment Message Dialog Domain Transport Client Bank
open Domain.Printed (Forms)
open Domain.Printed.Spec
open Swift.Spec (Statement)

/-! ## Specification -/

namespace Spec

/-- The table of balances; `bank` and `number` are the headings over the accounts. -/
def balanceTable {F T : Type} (f : Forms F T) (bank number : Str) (ab : List (Printed.Balance F T)) : Str :=
  c!"\n" ++ fill (widest 20 (ab.map (·.product))) c!"Product Name" ++ fill (widest 20 (ab.map (·.bank))) bank ++
    fill (widest 20 (ab.map (·.account))) number ++ fill 20 [] ++
    fill (widest 20 (ab.map fun a => f.day a.day)) c!"BookingDate" ++ fill (widest 20 (ab.map (booked f))) c!"Amount" ++ c!"Limit\n" ++
  (ab.flatMap fun a =>
    (if a.product = [] then List.replicate (widest 20 (ab.map (·.product))) '\t'
      else fill (widest 20 (ab.map (·.product))) a.product) ++
    fill (widest 20 (ab.map (·.bank))) a.bank ++ fill (widest 20 (ab.map (·.account))) a.account ++ fill 20 [] ++
    fill (widest 20 (ab.map fun a => f.day a.day)) (f.day a.day) ++ fill (widest 20 (ab.map (booked f))) (booked f a) ++
    fill (widest 20 (ab.map (limit f))) (limit f a) ++ c!"\n") ++
  (if ab.any (fun a => match a.earmarked with
      | none => false
      | some e => !f.isZero e.1) then c!"* earmarked transactions\n" else [])

/-- The table of transactions. -/
def transactionTable {F T : Type} (f : Forms F T) (l : List (Printed.Transaction F T)) : Str :=
  c!"\n" ++
  (match l.head? with
    | none => []
    | some a => c!"Transactions for account " ++ a.ownBank ++ c!"/" ++ a.ownAccount ++ c!"\n" ++ balanceAt f a.before) ++
  fill (widest 24 (l.map fun a => f.day a.day)) c!"BookingDate" ++ fill (widest 24 (l.map (·.text))) c!"Booking Text" ++
    fill (widest 24 (l.map fun a => money f a.amount)) c!"Amount" ++ fill (widest 24 (l.map (·.bank))) c!"BankID" ++
    fill (widest 24 (l.map (·.account))) c!"AccountID" ++ fill (widest 24 (l.map (·.name))) c!"Name" ++ c!"Purpose\n" ++
  (l.flatMap fun a =>
    fill (widest 24 (l.map fun a => f.day a.day)) (f.day a.day) ++ fill (widest 24 (l.map (·.text))) a.text ++
    fill (widest 24 (l.map fun a => money f a.amount)) (money f a.amount) ++ fill (widest 24 (l.map (·.bank))) a.bank ++
    fill (widest 24 (l.map (·.account))) a.account ++ fill (widest 24 (l.map (·.name))) a.name ++ a.purpose ++ c!"\n") ++
  (match l.getLast? with
    | none => []
    | some a => balanceAt f a.after)

/-- The table of accounts. -/
def accountTable {F T : Type} (f : Forms F T) (l : List (Printed.Information F)) : Str :=
  c!"\n" ++
  fill (widest 20 (l.map (·.bank))) c!"BankID" ++ fill (widest 20 (l.map (·.account))) c!"AccountID" ++
    fill (widest 20 (l.map (·.user))) c!"UserID" ++ fill (widest 20 (l.map (·.currency))) c!"Currency" ++
    fill (widest 20 (l.map fun a => a.name1 ++ c!", " ++ a.name2)) c!"Name" ++ fill (widest 20 (l.map (·.product))) c!"ProductID" ++ c!"Limit\n" ++
  l.flatMap fun a =>
    fill (widest 20 (l.map (·.bank))) a.bank ++ fill (widest 20 (l.map (·.account))) a.account ++
    fill (widest 20 (l.map (·.user))) a.user ++ fill (widest 20 (l.map (·.currency))) a.currency ++
    fill (widest 20 (l.map fun a => a.name1 ++ c!", " ++ a.name2)) (a.name1 ++ c!", " ++ a.name2) ++
    fill (widest 20 (l.map (·.product))) a.product ++ limitOf f a ++ c!"\n"

/-- The line of the table for a balance as the bank sent it; the account is named by two texts. -/
def lineOf {κ : Type} (bank number : κ → Str) (r : Report κ) : Printed.Balance Dec Time.Civil where
  product := r.product
  bank := bank r.account
  account := number r.account
  day := midnight r.booked.2.1
  booked := (r.booked.1.amount, r.booked.1.currency)
  earmarked := r.earmarked.map fun x => (x.1.amount, x.1.currency)
  limit := r.creditLimit.map fun a => (a.amount, a.currency)

/-- The line of the table for an account; a limit is never shown. -/
def accountLine (a : AccountInformation) : Printed.Information Dec where
  bank := a.connection.bankID
  account := a.connection.accountID
  user := a.userId
  currency := a.currency
  name1 := a.name1
  name2 := a.name2
  product := a.productId
  limit := none

/-- The texts of a balance can be printed in a table, and the bank is named. -/
structure Tidy {κ : Type} (b n : κ → Str) (r : Report κ) : Prop where
  product : Printed.Clean r.product
  bank : Printed.Clean (b r.account)
  number : Printed.Clean (n r.account)
  booked : Printed.Clean r.booked.1.currency
  earmarked : ∀ x, r.earmarked = some x → Printed.Clean x.1.currency
  limit : ∀ a, r.creditLimit = some a → Printed.Clean a.currency
  known : b r.account ≠ []

/-- The texts about an account can be printed in a table, and the bank is named. -/
structure TidyAccount (a : AccountInformation) : Prop where
  bank : Printed.Clean a.connection.bankID
  account : Printed.Clean a.connection.accountID
  user : Printed.Clean a.userId
  currency : Printed.Clean a.currency
  name1 : Printed.Clean a.name1
  name2 : Printed.Clean a.name2
  product : Printed.Clean a.productId
  known : a.connection.bankID ≠ []

/-- Bytes without tab and line feed. -/
def Plain (b : Bytes) : Prop := 9 ∉ b ∧ 10 ∉ b

/-- The texts of a statement can be printed in a table. -/
structure TidyStatement (s : Statement) : Prop where
  bank : Plain s.bank
  account : Plain s.account
  fields : ∀ e ∈ s.entries, ∀ x ∈ e.fields, Plain x.2

/-- The characters of bytes. -/
def chars (b : Bytes) : Str := b.map fun x => Char.ofNat x.toNat

/-- The line of the table for a transaction, with what is printed above and below the table. -/
def transactionLine {F : Type} (t : Swift.Transaction F) : Printed.Transaction F Time.Civil where
  ownBank := chars t.bankCode
  ownAccount := chars t.accountNumber
  amount := (t.amount, chars t.currency)
  day := t.bookingDate
  text := t.bookingText
  bank := t.otherBank
  account := t.otherAccount
  name := t.name
  purpose := t.purpose
  before := (t.beforeDate, (t.before, chars t.currency))
  after := (t.afterDate, (t.after, chars t.afterCurrency))

/-- A text of decimal digits. -/
def Numeric (s : Str) : Prop := ∀ c ∈ s, '0' ≤ c ∧ c ≤ '9'

/-- The account that is asked for. -/
def Wants (f : Flags) (a : Str) : Prop := (f.accountID ≠ [] ∧ a = f.accountID) ∨ (f.accountID = [] ∧ a = f.userID)

/-- The flags name a user, a bank of the table by a number of eight digits, a PIN, and an account
of at most ten digits. -/
structure Given (m : Machine) (f : Flags) (a : Str) : Prop where
  user : f.userID ≠ []
  pin : f.pin ≠ []
  texts : Latin1 f.userID ∧ Latin1 f.pin
  blz : Numeric f.blz ∧ f.blz.length = 8
  bank : ∃ info v, EntryFor m.table f.blz info ∧ info.hbciVersion = .ok v ∧ (v = 220 ∨ v = 300)
  wants : Wants f a
  account : Numeric a ∧ a.length ≤ 10

/-- The machine reads what banks send, and can write its own references. -/
structure Usual (m : Machine) : Prop where
  decoders : m.setup.world.decoders = Bank.decoders
  views : m.setup.world.views = Bank.views
  clientViews : ∃ now, m.setup.views = Bank.clientViews now
  refs : ∀ k, Latin1 (m.setup.world.controlRef k)

end Spec

open Spec

/-! ## Lemmas -/

theorem numeric_small {s : Str} (h : Numeric s) : ∀ c ∈ s, c.toNat < 128 := by
  intro c hc
  have := (h c hc).2
  have : c.toNat ≤ 57 := this
  omega

theorem numeric_bytes {s : Str} (h : Numeric s) : (utf8 s).length = s.length ∧ ∀ x ∈ utf8 s, Token.Spec.Digit x := by
  rw [Message.utf8_ascii (numeric_small h)]
  refine ⟨by simp, fun x hx => ?_⟩
  obtain ⟨c, hc, rfl⟩ := List.mem_map.1 hx
  have h1 : 48 ≤ c.toNat := (h c hc).1
  have h2 : c.toNat ≤ 57 := (h c hc).2
  have key : ∀ n, 48 ≤ n → n ≤ 57 → Token.Spec.Digit (UInt8.ofNat n) := by
    intro n a b
    unfold Token.Spec.Digit
    interval_cases n <;> decide
  exact key _ h1 h2

theorem raw_latin1 (b : Bytes) : Latin1 (raw b) := by
  intro c hc
  obtain ⟨x, _, rfl⟩ := List.mem_map.1 hc
  have key : ∀ x : UInt8, (Char.ofNat x.toNat).toNat ≤ 255 := by decide +kernel
  exact key x

theorem wants_account {f : Flags} {a : Str} (h : Wants f a) : account f = a := by
  unfold account
  rcases h with ⟨h1, rfl⟩ | ⟨h1, rfl⟩
  · rw [if_neg h1]
  · rw [if_pos h1]

theorem connected {m : Machine} {f : Flags} {a : Str} (h : Given m f a) (bic : Str) :
    ∃ i, connection f bic = .ok ⟨raw i, bic, a, [], 280, f.blz⟩ := by
  obtain ⟨b1, b2⟩ := numeric_bytes h.blz.1
  obtain ⟨a1, a2⟩ := numeric_bytes h.account.1
  obtain ⟨i, hi, _⟩ := Iban.C49_german (b1.trans h.blz.2) b2 (a1.trans_le h.account.2) a2
  refine ⟨i, ?_⟩
  unfold connection
  rw [wants_account h.wants, hi]
  rfl

theorem numeric_latin1 {s : Str} (h : Numeric s) : Latin1 s := fun c hc => by
  have := numeric_small h c hc
  omega

theorem given_missing {m : Machine} {f : Flags} {a : Str} (h : Given m f a) : missing f = [] := by
  have : f.blz ≠ [] := by
    intro he
    have := h.blz.2
    rw [he] at this
    simp at this
  simp [missing, h.user, this]

theorem started {m : Machine} {f : Flags} {a : Str} (hu : Usual m) (h : Given m f a) :
    ∃ url c s, Client.new m.setup.world m.table (config f) = .ok (url, c, s) ∧ Configured s.d ∧
      s.d.bankParameterData.parameters.version = 0 ∧ s.d.accounts = [] ∧ s.step = 0 ∧ s.sent = [] := by
  obtain ⟨info, n, h1, h2, h3⟩ := h.bank
  obtain ⟨v, hv⟩ : ∃ v : Version, v.number = n := by
    rcases h3 with rfl | rfl
    · exact ⟨.hbci220, rfl⟩
    · exact ⟨.fints300, rfl⟩
  obtain ⟨url, hurl⟩ : ∃ url, ((config f).url ≠ [] ∧ url = (config f).url ∨ (config f).url = [] ∧ url = info.url) := by
    by_cases hc : (config f).url = []
    · exact ⟨_, .inr ⟨hc, rfl⟩⟩
    · exact ⟨_, .inl ⟨hc, rfl⟩⟩
  obtain ⟨s, hs⟩ := (C79_created m.setup.world m.table (config f) info h1 url v).2 ⟨hurl, .inr ⟨by simp [config], by rw [h2, hv]⟩⟩
  have e : Latin1 ([] : Str) := by simp [Latin1]
  refine ⟨url, v, s, hs, C103_new hs h.pin ?_ hu.refs⟩
  simp only [config, List.mem_cons, List.not_mem_nil, or_false, forall_eq_or_imp, forall_eq]
  exact ⟨numeric_latin1 h.blz.1, h.texts.1, h.texts.2, e, e⟩

/-- A run with the flags, after the client was made. -/
theorem run_given {m : Machine} {f : Flags} {a : Str} (hu : Usual m) (h : Given m f a) (now : Time.Civil) (fuel : Nat) (cmd : Command) :
    ∃ (c : Client) (s : CSt BankSeg AccountInformation), Configured s.st.d ∧ s.st.d.bankParameterData.parameters.version = 0 ∧
      s.st.d.accounts = [] ∧ s.st.step = 0 ∧ s.st.sent = [] ∧
      run m f now fuel cmd = (command m c f now fuel s cmd).map fun x => (x.1, x.2.st.sent) := by
  obtain ⟨url, c, st, h1, h2, h3, h4, h5, h6⟩ := started hu h
  refine ⟨c, ⟨st, 0⟩, h2, h3, h4, h5, h6, ?_⟩
  unfold run
  rw [if_neg (by rw [given_missing h]; simp), h1]

theorem national_row {f : Flags} {ab : List (AccountBalance AccountConnection)} {rs : List (Report AccountConnection)}
    (h : List.Forall₂ (fun r b => r.ReportedAs none b) rs ab) : ab.map balanceRow = rs.map (lineOf (·.bankID) (·.accountID)) := by
  induction h with
  | nil => rfl
  | cons h _ ih =>
    rw [List.map_cons, List.map_cons, ih]
    congr 1
    obtain ⟨⟨h1, h2, -, h3, h4, h5, -⟩, -⟩ := h
    unfold balanceRow lineOf
    rw [h1, h2, h3, h4, h5]
    congr 1
    rw [Option.map_map]
    rfl

theorem sepa_row {ab : List (AccountBalance InternationalConnection)} {rs : List (Report InternationalConnection × Option Amount)}
    (h : List.Forall₂ (fun r b => r.1.ReportedAs r.2 b) rs ab) : ab.map sepaRow = rs.map fun r => lineOf (·.bic) (·.iban) r.1 := by
  induction h with
  | nil => rfl
  | cons h _ ih =>
    rw [List.map_cons, List.map_cons, ih]
    congr 1
    obtain ⟨⟨h1, h2, -, h3, h4, h5, -⟩, -⟩ := h
    unfold sepaRow lineOf
    rw [h1, h2, h3, h4, h5]
    congr 1
    rw [Option.map_map]
    rfl

theorem tidy_ok {κ : Type} {b n : κ → Str} {r : Report κ} (h : Tidy b n r) : BalanceOk (lineOf b n r) where
  product := h.product
  bank := h.bank
  account := h.number
  booked := h.booked
  earmarked := by
    intro e he
    obtain ⟨x, hx, rfl⟩ := Option.map_eq_some_iff.1 he
    exact h.earmarked x hx
  limit := by
    intro l hl
    obtain ⟨x, hx, rfl⟩ := Option.map_eq_some_iff.1 hl
    exact h.limit x hx
  known := h.known

/-! ## C110 -/

/-- C110: Without a user or without a bank nothing is sent, and the run tells exactly which of the
two flags are missing. -/
theorem C110_missing (m : Machine) (f : Flags) (now : Time.Civil) (fuel : Nat) (cmd : Command) :
    (f.userID = [] ∧ f.blz = [] → run m f now fuel cmd =
      some (.refused c!"Error: required flag(s) \"userID\", \"blz\" not set\n", [])) ∧
    (f.userID = [] ∧ f.blz ≠ [] → run m f now fuel cmd = some (.refused c!"Error: required flag(s) \"userID\" not set\n", [])) ∧
    (f.userID ≠ [] ∧ f.blz = [] → run m f now fuel cmd = some (.refused c!"Error: required flag(s) \"blz\" not set\n", [])) ∧
    (f.userID ≠ [] ∧ f.blz ≠ [] → ∀ r, run m f now fuel cmd = some r → ∀ text, r.1 ≠ .refused text) := by
  have sh : ∀ {ρ : Type} (g : ρ → Str) (o : Outcome ρ) (text : Str), shown g o ≠ .refused text := by
    intro ρ g o text
    cases o <;> simp [shown]
  refine ⟨fun ⟨h1, h2⟩ => ?_, fun ⟨h1, h2⟩ => ?_, fun ⟨h1, h2⟩ => ?_, fun ⟨h1, h2⟩ r hr text => ?_⟩
  · simp [run, missing, h1, h2, joinNames]
  · simp [run, missing, h1, h2, joinNames]
  · simp [run, missing, h1, h2, joinNames]
  · unfold run at hr
    rw [if_neg (by simp [missing, h1, h2])] at hr
    split at hr
    · cases hr; simp
    · cases hr; simp
    · obtain ⟨x, hx, rfl⟩ := Option.map_eq_some_iff.1 hr
      cases cmd with
      | accounts => cases hx; exact sh _ _ _
      | balances =>
        simp only [command, balancesCmd] at hx
        split at hx
        · cases hx; simp
        · cases hx; simp
        · split at hx
          · cases hx; exact sh _ _ _
          · obtain ⟨y, _, rfl⟩ := Option.map_eq_some_iff.1 hx
            exact sh _ _ _
      | transactions =>
        simp only [command, transactionsCmd] at hx
        split at hx
        · cases hx; simp
        · cases hx; simp
        · obtain ⟨y, _, rfl⟩ := Option.map_eq_some_iff.1 hx
          exact sh _ _ _

/-- C110: A bank that is not in the table cannot be used, not even with a URL. -/
theorem C110_unknown (m : Machine) (f : Flags) (now : Time.Civil) (fuel : Nat) (cmd : Command) (h1 : f.userID ≠ []) (h2 : f.blz ≠ [])
    (h : ∀ e ∈ m.table, e.bankID ≠ f.blz) : run m f now fuel cmd = some (.failed, []) := by
  unfold run
  rw [if_neg (by simp [missing, h1, h2]), (C79_unknown m.setup.world m.table (config f) (by simp [config])).1 h]

/-- C110: `banking balances --disableSepa` prints the balances the bank sent, as a table. -/
theorem C110_balances {m : Machine} (hu : Usual m) {f : Flags} {a : Str} (hg : Given m f a) (hs : f.disableSepa = true)
    {g : Greeting} {id : Str} {b : BankParameters} (hgreet : Greets m.setup.world 0 g) (hgood : g.Good id b)
    (hsup : (c!"HISALS", (5 : Int)) ∈ g.start.supported ∨ (c!"HISALS", (6 : Int)) ∈ g.start.supported)
    {v : Visit} (hserve : Serves m.setup.world 2 [v]) (hv : v.Good) (hr : ¬ v.page.Refuses) (hne : v.page.reports ≠ [])
    (hf : FormsOk m.forms) (ht : ∀ r ∈ v.page.reports, Tidy (·.bankID) (·.accountID) r) (now : Time.Civil) (fuel : Nat) :
    ∃ sent, run m f now fuel .balances = some (.printed (balanceTable m.forms c!"BankID" c!"AccountID"
      (v.page.reports.map (lineOf (·.bankID) (·.accountID))) ++ c!"\n"), sent) := by
  obtain ⟨c, s, k1, k2, k3, k4, k5, k6⟩ := run_given hu hg now fuel .balances
  obtain ⟨nw, hcv⟩ := hu.clientViews
  obtain ⟨i, hi⟩ := connected hg (Bankinfo.findByBankID m.table f.blz).bic
  have e : Latin1 ([] : Str) := by simp [Latin1]
  obtain ⟨bs, q1, q2⟩ := C103_balances (c := c) (account := ⟨a, [], 280, f.blz⟩) (all := true) hu.decoders hu.views hcv k1 k2
    (by rw [k4]; exact hgreet) hgood hsup
    (by
      simp only [List.mem_cons, List.not_mem_nil, or_false, forall_eq_or_imp, forall_eq]
      exact ⟨numeric_latin1 hg.account.1, e, numeric_latin1 hg.blz.1⟩) (by rw [k4]; exact hserve) hv hr hne
  rw [k6]
  simp only [command, balancesCmd, hi, hs, if_true, national, q1, shown, Option.map_some, national_row (f := f) q2]
  have hok : ∀ x ∈ v.page.reports.map (lineOf (fun c : AccountConnection => c.bankID) (fun c => c.accountID)), BalanceOk x := by
    intro x hx
    obtain ⟨r, hr, rfl⟩ := List.mem_map.1 hx
    exact tidy_ok (ht r hr)
  rw [Printed.C109_balances hf hok]
  exact ⟨_, rfl⟩

/-- C110: `banking balances` prints the balances the bank sent on all pages, as a table. -/
theorem C110_sepa_balances {m : Machine} (hu : Usual m) {f : Flags} {a : Str} (hg : Given m f a) (hs : f.disableSepa = false)
    {g : Greeting} {id : Str} {b : BankParameters} (hgreet : Greets m.setup.world 0 g) (hgood : g.Good id b)
    (hsup : (c!"HISALS", (7 : Int)) ∈ g.start.supported ∨ (c!"HISALS", (8 : Int)) ∈ g.start.supported)
    (hbic : ∀ info, EntryFor m.table f.blz info → Latin1 info.bic)
    {vs : List Visit} (hserve : Serves m.setup.world 2 vs) (hall : AllPages (vs.map Visit.page))
    (hv : ∀ v ∈ vs, v.Good ∧ v.page.sepaReports ≠ [] ∧ ∀ p ∈ v.page.segments, p.item.report.isSome = p.item.sepaReport.isSome)
    (hf : FormsOk m.forms) (ht : ∀ v ∈ vs, ∀ r ∈ v.page.sepaReports, Tidy (·.bic) (·.iban) r.1) (now : Time.Civil)
    {fuel : Nat} (hfuel : vs.length ≤ fuel) :
    ∃ sent, run m f now fuel .balances = some (.printed (balanceTable m.forms c!"BIC" c!"IBAN"
      (vs.flatMap fun v => v.page.sepaReports.map fun r => lineOf (·.bic) (·.iban) r.1) ++ c!"\n"), sent) := by
  obtain ⟨c, s, k1, k2, k3, k4, k5, k6⟩ := run_given hu hg now fuel .balances
  obtain ⟨nw, hcv⟩ := hu.clientViews
  obtain ⟨i, hi⟩ := connected hg (Bankinfo.findByBankID m.table f.blz).bic
  have e : Latin1 ([] : Str) := by simp [Latin1]
  obtain ⟨bs, t, q1, q2⟩ := C103_sepa_balances (c := c)
    (account := ⟨raw i, (Bankinfo.findByBankID m.table f.blz).bic, a, [], 280, f.blz⟩) (all := true) (mark := [])
    hu.decoders hu.views hcv k1 k2 (by rw [k4]; exact hgreet) hgood hsup
    (by
      simp only [List.mem_cons, List.not_mem_nil, or_false, forall_eq_or_imp, forall_eq]
      exact ⟨raw_latin1 _, hbic _ (entry_exists _ _), numeric_latin1 hg.account.1, e, numeric_latin1 hg.blz.1, e⟩)
    (by rw [k4]; exact hserve) hall hfuel hv
  rw [k6]
  simp only [command, balancesCmd, hi, hs, Bool.false_eq_true, if_false, q1, shown, Option.map_some, sepa_row q2]
  rw [List.map_flatMap]
  have hok : ∀ x ∈ (vs.flatMap fun v => v.page.sepaReports.map fun r => lineOf (fun c : InternationalConnection => c.bic) (fun c => c.iban) r.1),
      BalanceOk x := by
    intro x hx
    obtain ⟨v, hv, hx⟩ := List.mem_flatMap.1 hx
    obtain ⟨r, hr, rfl⟩ := List.mem_map.1 hx
    exact tidy_ok (ht v hv r hr)
  rw [Printed.C109_sepa hf hok]
  exact ⟨_, rfl⟩

theorem plain_clean {b : Bytes} (h : Plain b) : Printed.Clean (chars b) := by
  have key : ∀ x : UInt8, (Char.ofNat x.toNat = '\t' → x = 9) ∧ (Char.ofNat x.toNat = '\n' → x = 10) := by decide +kernel
  constructor
  · intro hx
    obtain ⟨x, hx, he⟩ := List.mem_map.1 hx
    exact h.1 ((key x).1 he ▸ hx)
  · intro hx
    obtain ⟨x, hx, he⟩ := List.mem_map.1 hx
    exact h.2 ((key x).2 he ▸ hx)

theorem upper_clean {b : Bytes} (h : ∀ x ∈ b, Swift.Spec.Upper x) : Printed.Clean (chars b) := by
  refine plain_clean ⟨fun hx => ?_, fun hx => ?_⟩
  · exact absurd (h _ hx).1 (by decide)
  · exact absurd (h _ hx).1 (by decide)

theorem text_clean {fs : List (Bytes × Bytes)} (h : ∀ x ∈ fs, Plain x.2) (key : Bytes) : Printed.Clean (Swift.text fs key) := by
  unfold Swift.text
  cases hl : fs.lookup key with
  | none => exact Printed.clean_nil
  | some v =>
    obtain ⟨x, hx, rfl⟩ : ∃ x ∈ fs, x.2 = v := by
      clear h
      induction fs with
      | nil => simp at hl
      | cons y fs ih =>
        obtain ⟨k, w⟩ := y
        rw [List.lookup_cons] at hl
        split at hl
        · cases hl; exact ⟨(k, v), by simp, rfl⟩
        · obtain ⟨x, hx, he⟩ := ih hl
          exact ⟨x, by simp [hx], he⟩
    exact plain_clean (h x hx)

theorem join_clean {l : List Str} (h : ∀ x ∈ l, Printed.Clean x) : Printed.Clean (c!" ".intercalate l) := by
  constructor
  all_goals
    intro hx
    induction l with
    | nil => simp at hx
    | cons a l ih =>
      have ha := h a (by simp)
      cases l with
      | nil => simp [List.intercalate] at hx; first | exact ha.1 hx | exact ha.2 hx
      | cons b l =>
        have : c!" ".intercalate (a :: b :: l) = a ++ c!" " ++ c!" ".intercalate (b :: l) := by simp [List.intercalate]
        rw [this, List.mem_append, List.mem_append] at hx
        rcases hx with (hx | hx) | hx
        · first | exact ha.1 hx | exact ha.2 hx
        · simp at hx
        · exact ih (fun x hx => h x (by simp [hx])) hx

theorem line_ok {L : Swift.Lib} {c : Int} {s : Statement} {e : Swift.Spec.Entry} {x : Swift.Transaction L.F} (ho : s.Ok c) (ht : TidyStatement s)
    (he : e ∈ s.entries) (h : Swift.Reported L c s e x) : TransactionOk (transactionLine x) := by
  have hfs := ht.fields e he
  refine ⟨?_, ?_, ?_, ?_, ?_, ?_, ?_, ?_, ?_, ?_⟩ <;> simp only [transactionLine]
  · rw [h.bankCode]; exact plain_clean ht.bank
  · rw [h.accountNumber]; exact plain_clean ht.account
  · rw [h.currency]; exact upper_clean ho.opening.currency.2
  · rw [h.bookingText]; exact text_clean hfs _
  · rw [h.otherBank]; exact text_clean hfs _
  · rw [h.otherAccount]; exact text_clean hfs _
  · rw [h.name]
    refine Printed.clean_append (text_clean hfs _) ?_
    cases hl : e.fields.lookup b!"?33" with
    | none => exact Printed.clean_nil
    | some v =>
      have := text_clean hfs b!"?33"
      unfold Swift.text at this
      rw [hl] at this
      exact Printed.clean_append (a := [' ']) (Printed.clean_of (by decide)) this
  · rw [h.purpose]
    refine join_clean fun y hy => ?_
    obtain ⟨z, hz, rfl⟩ := List.mem_map.1 hy
    exact plain_clean (hfs z (List.mem_filter.1 hz).1)
  · rw [h.currency]; exact upper_clean ho.opening.currency.2
  · rw [h.afterCurrency]; exact upper_clean ho.closing.currency.2

theorem forall₂_right {A B : Type} {R : A → B → Prop} {l : List A} {k : List B} (h : List.Forall₂ R l k) {y : B} (hy : y ∈ k) :
    ∃ x ∈ l, R x y := by
  induction h with
  | nil => simp at hy
  | cons h _ ih =>
    rcases List.mem_cons.1 hy with rfl | hy
    · exact ⟨_, by simp, h⟩
    · obtain ⟨e, he, hx⟩ := ih hy
      exact ⟨e, by simp [he], hx⟩

/-- C110: `banking transactions --disableSepa` prints the transactions of all pages the bank sent,
as a table with the balances of the first and the last statement. -/
theorem C110_transactions {m : Machine} (hu : Usual m) (hclock : StrictMono m.setup.clock) (h1 : 1000 ≤ m.lib.year) (h2 : m.lib.year ≤ 9999)
    {f : Flags} {a : Str} (hg : Given m f a) (hs : f.disableSepa = true)
    {g : Greeting} {id : Str} {b : BankParameters} (hgreet : Greets m.setup.world 0 g) (hgood : g.Good id b)
    (hsup : (c!"HIKAZS", (5 : Int)) ∈ g.start.supported ∨ (c!"HIKAZS", (6 : Int)) ∈ g.start.supported)
    {vs : List Visit} (hserve : Serves m.setup.world 2 vs) (hv : ∀ v ∈ vs, v.Good) (hall : AllPages (vs.map Visit.page))
    {ss : List Statement} (hne : ss ≠ []) (hss : (vs.map fun v => v.page.booked).flatten = (ss.map Statement.text).flatten)
    (hok : ∀ s ∈ ss, s.Ok (m.lib.year / 100 * 100) ∧ Swift.Amounts m.lib s ∧ ∀ e ∈ s.entries, ¬ Swift.Spec.Crash e.rest)
    (hf : FormsOk m.libForms) (hday : ∀ t, m.libForms.day t ≠ []) (ht : ∀ s ∈ ss, TidyStatement s) (now : Time.Civil)
    {fuel : Nat} (hfuel : vs.length ≤ fuel) :
    ∃ (parts : List (List (Swift.Transaction m.lib.F))) (sent : List (Sent BankSeg)),
      run m f now fuel .transactions = some (.printed (transactionTable m.libForms (parts.flatten.map transactionLine)), sent) ∧
      List.Forall₂ (fun s p => List.Forall₂ (Swift.Reported m.lib (m.lib.year / 100 * 100) s) s.entries p) ss parts := by
  obtain ⟨c, s, k1, k2, k3, k4, k5, k6⟩ := run_given hu hg now fuel .transactions
  obtain ⟨nw, hcv⟩ := hu.clientViews
  obtain ⟨i, hi⟩ := connected hg []
  have e : Latin1 ([] : Str) := by simp [Latin1]
  obtain ⟨parts, t, q1, q2⟩ := C103_transactions (L := m.lib) (c := c) (account := ⟨a, [], 280, f.blz⟩) (all := false)
    (tf := timeframe f now) (mark := []) hu.decoders hu.views hcv hclock h1 h2 k1 k2
    (by rw [k4]; exact hgreet) hgood hsup
    (by
      simp only [List.mem_cons, List.not_mem_nil, or_false, forall_eq_or_imp, forall_eq]
      exact ⟨numeric_latin1 hg.account.1, e, numeric_latin1 hg.blz.1, e⟩) (by rw [k4]; exact hserve) hv hall hfuel hne hss hok
  refine ⟨parts, t.st.sent, ?_, q2⟩
  rw [k6]
  simp only [command, transactionsCmd, hi, hs, if_true, national, q1, shown, Option.map_some]
  have hrow : ∀ l : List (Swift.Transaction m.lib.F), l.map transactionRow = l.map transactionLine := fun _ => rfl
  have hclean : ∀ x ∈ parts.flatten.map transactionLine, TransactionOk x := by
    intro x hx
    obtain ⟨y, hy, rfl⟩ := List.mem_map.1 hx
    obtain ⟨p, hp, hy⟩ := List.mem_flatten.1 hy
    obtain ⟨s, hs, hsp⟩ := forall₂_right q2 hp
    obtain ⟨e, he, hr⟩ := forall₂_right hsp hy
    exact line_ok (hok s hs).1 (ht s hs) he hr
  rw [hrow, Printed.C109_transactions hf hday hclean]
  rfl

/-- C110: `banking transactions` without that flag never prints transactions, whatever the bank
supports and answers; they are not even requested. -/
theorem C110_transactions_sepa (m : Machine) (f : Flags) (hs : f.disableSepa = false) (now : Time.Civil) (fuel : Nat) :
    ∃ r sent, run m f now (fuel + 1) .transactions = some (r, sent) ∧ (∀ text, r ≠ .printed text) ∧ ∀ e ∈ sent, e.kind ≠ .job := by
  unfold run
  split
  · exact ⟨_, _, rfl, by simp, by simp⟩
  · split
    · exact ⟨_, _, rfl, by simp, by simp⟩
    · exact ⟨_, _, rfl, by simp, by simp⟩
    · rename_i url c st hn
      have h0 : st.sent = [] := (C79_fresh _ _ _ _ _ _ hn).2
      simp only [command, transactionsCmd, hs, Bool.false_eq_true, if_false]
      split
      · exact ⟨_, _, rfl, by simp, by simp [h0]⟩
      · exact ⟨_, _, rfl, by simp, by simp [h0]⟩
      · rename_i a _
        obtain ⟨r, t, S, q1, q2, q3, q4⟩ := C35_sepa_never m.setup m.lib c a false (timeframe f now) [] fuel ⟨st, 0⟩
        rw [q1]
        refine ⟨_, _, rfl, ?_, ?_⟩
        · intro text
          cases r with
          | ok x => exact absurd rfl (q2 x)
          | err => simp [shown]
          | panic => simp [shown]
        · simp only [q3, h0, List.nil_append]
          exact q4

/-- C110: `banking accounts` prints the accounts the bank sent, as a table; those in both of its
answers are printed twice. -/
theorem C110_accounts {m : Machine} (hu : Usual m) {f : Flags} {a : Str} (hg : Given m f a)
    {g : Greeting} {id : Str} {b : BankParameters} (hgreet : Greets m.setup.world 0 g) (hgood : g.Good id b)
    {opening closing : Answer} (ho : opening.Good) (hc : closing.Good) (hwel : Welcoming opening.envelope opening.segments)
    (h1 : ∀ b, (m.setup.world.env 3).transport b = .ok (opening.bytes, true))
    (h2 : ∀ b, (m.setup.world.env 4).transport b = .ok (closing.bytes, true)) (hf : FormsOk m.forms)
    (ht : ∀ x ∈ allSaid Item.accountInformation g.start.segments ++ allSaid Item.accountInformation opening.segments, TidyAccount x)
    (now : Time.Civil) (fuel : Nat) :
    ∃ sent, run m f now fuel .accounts = some (.printed (accountTable m.forms
      ((allSaid Item.accountInformation g.start.segments ++ allSaid Item.accountInformation opening.segments).map accountLine)), sent) := by
  obtain ⟨c, s, k1, k2, k3, k4, k5, k6⟩ := run_given hu hg now fuel .accounts
  have q := C103_accounts (u := m.setup) hu.decoders hu.views k1 k2 (by rw [k4]; exact hgreet) hgood ho hc hwel
    (by rw [k4]; exact h1) (by rw [k4]; exact h2)
  rw [k3, List.nil_append] at q
  have hok : ∀ x ∈ (allSaid Item.accountInformation g.start.segments ++ allSaid Item.accountInformation opening.segments).map accountLine,
      InformationOk x := by
    intro x hx
    obtain ⟨y, hy, rfl⟩ := List.mem_map.1 hx
    have := ht y hy
    exact ⟨this.bank, this.account, this.user, this.currency, this.name1, this.name2, this.product, by simp [accountLine], this.known⟩
  have hrow : ∀ l : List AccountInformation, l.map informationRow = l.map accountLine := fun _ => rfl
  rw [k6]
  simp only [command, accountsCmd, q, shown, Option.map_some, hrow]
  rw [Printed.C109_informations hf hok]
  exact ⟨_, rfl⟩

/-! ## What is asked for -/

theorem of_jobs {σ : Type} {log l : List (Sent σ)} {P : Sent σ → Prop} (h : log.filter (fun e => e.kind = .job) = l) (hp : ∀ e ∈ l, P e) :
    ∀ e ∈ log, e.kind = .job → P e := by
  intro e he hk
  exact hp e (by rw [← h, List.mem_filter]; exact ⟨he, by simpa using hk⟩)

theorem chain_asks {σ α β γ δ : Type} {u : Setup σ α β γ δ} {account : AccountConnection} {all : Bool} {tf : Domain.Timeframe}
    {mark next : Str} {ps : List (Fetched σ)} (h : Chain u account all tf mark ps next) :
    ∀ p ∈ ps, ∃ mark, Asks u.today account all tf mark p.request := by
  induction h with
  | nil => simp
  | cons h _ _ ih =>
    intro p hp
    rcases List.mem_cons.1 hp with rfl | hp
    · exact ⟨_, h.asks⟩
    · exact ih p hp

theorem transactions_asks {σ α β γ δ : Type} {u : Setup σ α β γ δ} {L : Swift.Lib} {c : Client} {account : AccountConnection} {all : Bool}
    {tf : Domain.Timeframe} {mark : Str} {fuel : Nat} {s t : CSt σ α} {r : Outcome (List (Swift.Transaction L.F))}
    (h : Client.transactions u L c (plainBuilder account all) tf mark fuel s = some (r, t)) (h0 : s.st.sent = []) :
    ∀ e ∈ t.st.sent, e.kind = .job → ∃ mark, Asks u.today account all tf mark e := by
  obtain ⟨log, ps, h1, h2⟩ := C35_outcome u L c account all tf mark fuel s t r h
  rw [h1, h0, List.nil_append]
  rcases h2 with ⟨h2, ⟨before, last, m, q, rfl, h3, h4, _⟩, _⟩ | ⟨h2, ⟨next, h3⟩, _⟩ | ⟨e, next, h2, h3, h4, _⟩
  · refine of_jobs h2 fun e he => ?_
    obtain ⟨p, hp, rfl⟩ := List.mem_map.1 he
    rcases List.mem_append.1 hp with hp | hp
    · exact chain_asks h3 p hp
    · rw [List.mem_singleton.1 hp]
      exact ⟨_, h4.asks⟩
  · refine of_jobs h2 fun e he => ?_
    obtain ⟨p, hp, rfl⟩ := List.mem_map.1 he
    exact chain_asks h3 p hp
  · refine of_jobs h2 fun e' he => ?_
    rcases List.mem_append.1 he with he | he
    · obtain ⟨p, hp, rfl⟩ := List.mem_map.1 he
      exact chain_asks h3 p hp
    · rw [List.mem_singleton.1 he]
      exact ⟨_, h4⟩

theorem sepa_pages_asks {σ α β γ δ : Type} (u : Setup σ α β γ δ) (c : Client) (account : InternationalConnection) (all : Bool) :
    ∀ (fuel : Nat) (mark : Str) (s t : CSt σ α) (r : Outcome (List γ)), sepaAccountBalances u c account all fuel mark s = some (r, t) →
      ∃ log, t.st.sent = s.st.sent ++ log ∧ ∀ e ∈ log, e.kind = .job → ∃ mark, AsksSepa account all mark e := by
  intro fuel
  induction fuel with
  | zero => intro mark s t r h; simp [sepaAccountBalances] at h
  | succ fuel ih =>
    intro mark s t r h
    rw [sepaAccountBalances] at h
    obtain ⟨log, hlog, hcases⟩ := balancePage_cases u c account all mark s
    generalize balancePage u c account all mark s = X at h hlog hcases
    obtain ⟨q, t1⟩ := X
    simp only at hlog hcases h
    have hall : ∀ e ∈ log, e.kind = .job → ∃ mark, AsksSepa account all mark e := by
      rcases hcases with ⟨h1, _⟩ | ⟨e, h1, h2, _⟩
      · exact of_jobs h1 (by simp)
      · refine of_jobs h1 fun x hx => ?_
        rw [List.mem_singleton.1 hx]
        exact ⟨_, h2⟩
    cases q with
    | err => cases h; exact ⟨log, hlog, hall⟩
    | panic => cases h; exact ⟨log, hlog, hall⟩
    | ok x =>
      obtain ⟨bs, next⟩ := x
      simp only at h
      split at h
      · cases h; exact ⟨log, hlog, hall⟩
      · obtain ⟨y, hy, he⟩ := Option.map_eq_some_iff.1 h
        obtain ⟨log2, k1, k2⟩ := ih next t1 y.2 y.1 hy
        simp only [Prod.mk.injEq] at he
        refine ⟨log ++ log2, by rw [← he.2, k1, hlog, List.append_assoc], fun e he hk => ?_⟩
        rcases List.mem_append.1 he with he | he
        · exact hall e he hk
        · exact k2 e he hk

/-- The client of a run that sends something. -/
theorem run_sends {m : Machine} {f : Flags} {now : Time.Civil} {fuel : Nat} {cmd : Command} {r : End} {sent : List (Sent BankSeg)}
    (h : run m f now fuel cmd = some (r, sent)) (hne : sent ≠ []) :
    ∃ c s x, s.st.sent = [] ∧ command m c f now fuel s cmd = some x ∧ r = x.1 ∧ sent = x.2.st.sent := by
  unfold run at h
  split at h
  · cases h; exact absurd rfl hne
  · split at h
    · cases h; exact absurd rfl hne
    · cases h; exact absurd rfl hne
    · rename_i url c st hn
      obtain ⟨x, hx, he⟩ := Option.map_eq_some_iff.1 h
      cases he
      exact ⟨c, ⟨st, 0⟩, x, (C79_fresh _ _ _ _ _ _ hn).2, hx, rfl, rfl⟩

theorem connection_ok {f : Flags} {a bic : Str} (hw : Wants f a) {k : InternationalConnection} (h : connection f bic = .ok k) :
    ∃ i, Iban.newGerman (utf8 f.blz) (utf8 a) = .ok i ∧ k = ⟨raw i, bic, a, [], 280, f.blz⟩ := by
  unfold connection at h
  rw [wants_account hw] at h
  obtain ⟨i, h1, h2⟩ := Dialog.map_ok h
  exact ⟨i, h1, h2.symm⟩

/-- C110: `banking balances --disableSepa` asks for the account that was named, or else for that of
the user, but always for all other accounts as well. -/
theorem C110_asks_balances {m : Machine} {f : Flags} {a : Str} (hw : Wants f a) (hs : f.disableSepa = true) {now : Time.Civil} {fuel : Nat}
    {r : End} {sent : List (Sent BankSeg)} (h : run m f now fuel .balances = some (r, sent)) :
    ∀ e ∈ sent, e.kind = .job → AsksBalance ⟨a, [], 280, f.blz⟩ true e := by
  by_cases hne : sent = []
  · subst hne; simp
  obtain ⟨c, s, x, h0, hx, rfl, rfl⟩ := run_sends h hne
  simp only [command, balancesCmd, hs, if_true] at hx
  split at hx
  · cases hx; exact absurd h0 hne
  · cases hx; exact absurd h0 hne
  · rename_i k hk
    obtain ⟨i, _, rfl⟩ := connection_ok hw hk
    cases hx
    obtain ⟨log, h1, h2⟩ := C81_balances m.setup c (national ⟨raw i, (Bankinfo.findByBankID m.table f.blz).bic, a, [], 280, f.blz⟩) true s
    rw [h0, List.nil_append] at h1
    simp only [h1]
    rcases h2 with ⟨e, _, _, h3, h4, _⟩ | ⟨h3, _⟩ | ⟨e, h3, h4, _⟩
    · refine of_jobs h3 fun y hy => ?_
      rw [List.mem_singleton.1 hy]
      exact h4
    · exact of_jobs h3 (by simp)
    · refine of_jobs h3 fun y hy => ?_
      rw [List.mem_singleton.1 hy]
      exact h4

/-- C110: `banking balances` does the same with the IBAN made of the numbers and the BIC of the bank
table. -/
theorem C110_asks_sepa {m : Machine} {f : Flags} {a : Str} (hw : Wants f a) (hs : f.disableSepa = false) {now : Time.Civil} {fuel : Nat}
    {info : Bankinfo.BankInfo} (hi : EntryFor m.table f.blz info)
    {r : End} {sent : List (Sent BankSeg)} (h : run m f now fuel .balances = some (r, sent)) :
    ∀ e ∈ sent, e.kind = .job → ∃ i mark, Iban.newGerman (utf8 f.blz) (utf8 a) = .ok i ∧
      AsksSepa ⟨chars i, info.bic, a, [], 280, f.blz⟩ true mark e := by
  by_cases hne : sent = []
  · subst hne; simp
  obtain ⟨c, s, x, h0, hx, rfl, rfl⟩ := run_sends h hne
  simp only [command, balancesCmd, hs, Bool.false_eq_true, if_false] at hx
  split at hx
  · cases hx; exact absurd h0 hne
  · cases hx; exact absurd h0 hne
  · rename_i k hk
    obtain ⟨i, hi', rfl⟩ := connection_ok hw hk
    obtain ⟨y, hy, rfl⟩ := Option.map_eq_some_iff.1 hx
    obtain ⟨log, h1, h2⟩ := sepa_pages_asks m.setup c _ true fuel [] s y.2 y.1 hy
    rw [h0, List.nil_append] at h1
    simp only [h1]
    intro e he hk
    obtain ⟨mark, h3⟩ := h2 e he hk
    rw [entry_unique hi] at h3
    exact ⟨i, mark, hi', h3⟩

theorem days_ago {now : Time.Civil} (h : Time.Exists now) (n : Int) :
    OnDay now (-n) ⟨0, 0, 0, 0, 0, 0, 0⟩ (newShortDate (daysBefore n now)) := by
  obtain ⟨h1, h2⟩ := Time.civil_spec (Time.instant now + -(n * 86400000000000))
  unfold daysBefore Time.add newShortDate
  generalize Time.civil (Time.instant now + -(n * 86400000000000)) = x at h1 h2
  obtain ⟨c1, c2, c3, c4, c5, c6, c7, c8⟩ := h1
  obtain ⟨b1, b2, b3, b4, b5, b6, b7, b8⟩ := h
  refine ⟨(existing_iff _ _ _).2 ⟨⟨c1, c2⟩, c3, c4⟩, ?_, rfl, rfl, rfl, rfl⟩
  unfold Time.instant at h2
  rw [Time.days_eq _ c1 c2, Time.days_eq _ b1 b2] at h2
  simp only
  generalize Swift.Spec.dayNumber x.year x.month x.day = X at h2 ⊢
  generalize Swift.Spec.dayNumber now.year now.month now.day = D at h2 ⊢
  omega

/-- C110: `banking transactions --disableSepa` asks for one account, from the day on that is as many
days before today as it was told, and up to the day of the request. -/
theorem C110_asks_transactions {m : Machine} {f : Flags} {a : Str} (hw : Wants f a) (hs : f.disableSepa = true) {now : Time.Civil}
    (hnow : Time.Exists now) {fuel : Nat} {r : End} {sent : List (Sent BankSeg)} (h : run m f now fuel .transactions = some (r, sent)) :
    ∃ start, OnDay now (-f.daysToFetch) ⟨0, 0, 0, 0, 0, 0, 0⟩ start ∧
      ∀ e ∈ sent, e.kind = .job → ∃ mark, Asks m.setup.today ⟨a, [], 280, f.blz⟩ false ⟨start, ⟨1, 1, 1, 0, 0, 0, 0⟩⟩ mark e := by
  refine ⟨newShortDate (daysBefore f.daysToFetch now), days_ago hnow _, ?_⟩
  by_cases hne : sent = []
  · subst hne; simp
  obtain ⟨c, s, x, h0, hx, rfl, rfl⟩ := run_sends h hne
  simp only [command, transactionsCmd, hs, if_true] at hx
  split at hx
  · cases hx; exact absurd h0 hne
  · cases hx; exact absurd h0 hne
  · rename_i k hk
    obtain ⟨i, hi', rfl⟩ := connection_ok hw hk
    obtain ⟨y, hy, rfl⟩ := Option.map_eq_some_iff.1 hx
    exact transactions_asks hy h0

/-! ## Examples -/

namespace Demo

open Bank.Sample Swift

def numbers : Forms Dec Time.Civil where
  number _ := c!"1.00"
  isZero _ := false
  day _ := c!"2026-11-16"

def amounts : Forms sampleLib.F Time.Civil where
  number _ := c!"1.00"
  isZero _ := false
  day _ := c!"2026-11-16"

def entry : Bankinfo.BankInfo :=
  ⟨c!"10020030", c!"ABCDDEFF", c!"3.0", c!"https://bank/", c!"FinTS V3.0", c!"Bank A", c!"Ort", []⟩

def machine (pages : List Answer) : Machine := ⟨newcomer pages, sampleLib, [entry], numbers, amounts⟩

def flags : Flags := ⟨[], c!"123456", c!"10020030", c!"secret", [], true, 10⟩

theorem usual (pages : List Answer) : Usual (machine pages) where
  decoders := rfl
  views := rfl
  clientViews := ⟨Time.zeroTime, rfl⟩
  refs := fun _ => by
    have : Latin1 c!"1234" := latin1_of_all (by decide)
    exact this

theorem entryFor (pages : List Answer) : EntryFor (machine pages).table c!"10020030" entry :=
  .inr ⟨[], [], rfl, rfl, by simp⟩

theorem given (pages : List Answer) (sepa : Bool) : Given (machine pages) { flags with disableSepa := sepa } c!"123456" where
  user := by simp [flags]
  pin := by simp [flags]
  texts := ⟨(latin1_of_all (by decide) : Latin1 c!"123456"), (latin1_of_all (by decide) : Latin1 c!"secret")⟩
  blz := ⟨(by unfold Numeric; decide : Numeric c!"10020030"), rfl⟩
  bank := ⟨entry, 300, entryFor pages, by decide, .inr rfl⟩
  wants := .inr ⟨rfl, rfl⟩
  account := ⟨by unfold Numeric; decide, by decide⟩

end Demo

section
open Bank.Sample Swift Demo

/-- C110_missing, C110_unknown. -/
example : run (machine []) { flags with userID := [] } Time.zeroTime 1 .accounts =
      some (.refused c!"Error: required flag(s) \"userID\" not set\n", []) ∧
    run (machine []) { flags with blz := c!"99999999", url := c!"https://other/" } Time.zeroTime 1 .accounts = some (.failed, []) :=
  ⟨(C110_missing _ _ _ _ _).2.1 ⟨rfl, by simp [flags]⟩, C110_unknown _ _ _ _ _ (by simp [flags]) (by simp) (by
    intro e he
    rw [List.mem_singleton.1 he]
    decide)⟩

theorem clean_all : FormsOk numbers ∧ FormsOk amounts :=
  ⟨⟨fun _ => Printed.clean_of (c := c!"1.00") (by decide), fun _ => Printed.clean_of (c := c!"2026-11-16") (by decide)⟩,
   ⟨fun _ => Printed.clean_of (c := c!"1.00") (by decide), fun _ => Printed.clean_of (c := c!"2026-11-16") (by decide)⟩⟩

theorem sample_tidy : Tidy (κ := AccountConnection) (·.bankID) (·.accountID) sampleReport := by
  refine ⟨Printed.clean_of (by decide), Printed.clean_of (by decide), Printed.clean_of (by decide), Printed.clean_of (by decide), ?_, ?_,
    by decide⟩
  · intro x hx
    cases hx
  · intro x hx
    cases hx
    exact Printed.clean_of (by decide)

theorem sepa_tidy : Tidy (κ := InternationalConnection) (·.bic) (·.iban) sepaReport := by
  refine ⟨Printed.clean_of (by decide), Printed.clean_of (by decide), Printed.clean_of (by decide), Printed.clean_of (by decide), ?_, ?_,
    by decide⟩
  · intro x hx
    cases hx
  · intro x hx
    cases hx
    exact Printed.clean_of (by decide)

theorem statement_tidy : TidyStatement sampleStatement := by
  refine ⟨?_, ?_, ?_⟩
  · unfold Spec.Plain; decide
  · unfold Spec.Plain; decide
  · unfold Spec.Plain; decide

/-- C110_balances, C110_asks_balances: the balance of one account was wanted; all are asked for. -/
example : ∃ sent, run (machine [⟨envelope, [⟨.overall [⟨10, [], c!"ok", []⟩], 2, none⟩, balance]⟩]) flags ⟨2026, 11, 16, 12, 0, 0, 0⟩ 1 .balances =
      some (.printed (balanceTable numbers c!"BankID" c!"AccountID" [lineOf (·.bankID) (·.accountID) sampleReport] ++ c!"\n"), sent) ∧
    ∀ e ∈ sent, e.kind = .job → AsksBalance ⟨c!"123456", [], 280, c!"10020030"⟩ true e := by
  obtain ⟨sent, h⟩ := C110_balances (v := ⟨fine, ⟨envelope, [⟨.overall [⟨10, [], c!"ok", []⟩], 2, none⟩, balance]⟩, fine⟩)
    (usual [⟨envelope, [⟨.overall [⟨10, [], c!"ok", []⟩], 2, none⟩, balance]⟩]) (given _ true) rfl (greets _) greeting_good (by decide +kernel)
    ⟨fun _ => rfl, fun _ => rfl, fun _ => rfl, trivial⟩
    (fine_visit (answer_of (by
      intro p hp
      simp only [List.mem_cons, List.not_mem_nil, or_false] at hp
      rcases hp with rfl | rfl
      · exact overall_good
      · exact balance_good) (by decide +kernel))) (fine_last (by decide +kernel)).2 (by simp [Answer.reports, balance, Item.report])
    clean_all.1 (by
      intro r hr
      have hr : r = sampleReport := by simpa [Answer.reports, balance, Item.report] using hr
      subst hr
      exact sample_tidy) ⟨2026, 11, 16, 12, 0, 0, 0⟩ 1
  exact ⟨sent, h, C110_asks_balances (given [] true).wants rfl h⟩

/-- C110_sepa_balances, C110_asks_sepa. -/
example : ∃ sent, run (machine [firstBalance, secondBalance]) { flags with disableSepa := false } ⟨2026, 11, 16, 12, 0, 0, 0⟩ 2 .balances =
      some (.printed (balanceTable numbers c!"BIC" c!"IBAN" [lineOf (·.bic) (·.iban) sepaReport, lineOf (·.bic) (·.iban) sepaReport] ++ c!"\n"), sent) ∧
    ∀ e ∈ sent, e.kind = .job → ∃ i mark, Iban.newGerman b!"10020030" b!"123456" = .ok i ∧
      AsksSepa ⟨chars i, c!"ABCDDEFF", c!"123456", [], 280, c!"10020030"⟩ true mark e := by
  obtain ⟨sent, h⟩ := C110_sepa_balances (vs := [⟨fine, firstBalance, fine⟩, ⟨fine, secondBalance, fine⟩])
    (usual [firstBalance, secondBalance]) (given _ false) rfl (greets _) greeting_good (by decide +kernel)
    (by
      intro info hi
      rw [← entry_unique hi]
      exact (latin1_of_all (by decide) : Latin1 c!"ABCDDEFF"))
    (newcomer_serves _ _)
    (two_pages (more_continues (by decide +kernel)) (fine_last (by decide +kernel))) (by
      intro v hv
      simp only [List.mem_cons, List.not_mem_nil, or_false] at hv
      rcases hv with rfl | rfl
      · refine ⟨fine_visit (answer_of (by
          intro p hp
          simp only [List.mem_cons, List.not_mem_nil, or_false] at hp
          rcases hp with rfl | rfl | rfl
          · exact overall_good
          · exact more_good
          · exact sepaBalance_good) (by decide +kernel)), by simp [firstBalance, Answer.sepaReports, more, sepaBalance, Item.sepaReport], ?_⟩
        intro p hp
        simp only [firstBalance, List.mem_cons, List.not_mem_nil, or_false] at hp
        rcases hp with rfl | rfl | rfl <;> rfl
      · refine ⟨fine_visit (answer_of (by
          intro p hp
          simp only [List.mem_cons, List.not_mem_nil, or_false] at hp
          rcases hp with rfl | rfl
          · exact overall_good
          · exact sepaBalance_good) (by decide +kernel)), by simp [secondBalance, Answer.sepaReports, sepaBalance, Item.sepaReport], ?_⟩
        intro p hp
        simp only [secondBalance, List.mem_cons, List.not_mem_nil, or_false] at hp
        rcases hp with rfl | rfl <;> rfl)
    clean_all.1 (by
      intro v hv r hr
      simp only [List.mem_cons, List.not_mem_nil, or_false] at hv
      have hr : r.1 = sepaReport := by
        rcases hv with rfl | rfl <;>
          simp [firstBalance, secondBalance, Answer.sepaReports, more, sepaBalance, Item.sepaReport] at hr <;> rw [hr]
      rw [hr]
      exact sepa_tidy) ⟨2026, 11, 16, 12, 0, 0, 0⟩ (Nat.le_refl 2)
  exact ⟨sent, h, C110_asks_sepa (given [] false).wants rfl (entryFor _) h⟩

/-- C110_transactions, C110_asks_transactions: from the 6th of November on. -/
example : ∃ (parts : List (List (Transaction sampleLib.F))) (sent : List (Sent BankSeg)),
    run (machine [firstHalf, secondHalf]) flags ⟨2026, 11, 16, 12, 0, 0, 0⟩ 2 .transactions =
      some (.printed (transactionTable amounts (parts.flatten.map transactionLine)), sent) ∧
    List.Forall₂ (fun s p => List.Forall₂ (Reported sampleLib 2000 s) s.entries p) [sampleStatement] parts ∧
    ∀ e ∈ sent, e.kind = .job → ∃ mark, Asks (machine [firstHalf, secondHalf]).setup.today ⟨c!"123456", [], 280, c!"10020030"⟩ false
      ⟨⟨2026, 11, 6, 0, 0, 0, 0⟩, ⟨1, 1, 1, 0, 0, 0, 0⟩⟩ mark e := by
  obtain ⟨parts, sent, h, hp⟩ := C110_transactions (vs := [⟨fine, firstHalf, fine⟩, ⟨fine, secondHalf, fine⟩]) (ss := [sampleStatement])
    (usual [firstHalf, secondHalf]) (fun a b h => by simpa [machine, newcomer, served] using h) (by decide) (by decide)
    (given _ true) rfl (greets _) greeting_good (by decide +kernel) (newcomer_serves _ _) (by
      intro v hv
      simp only [List.mem_cons, List.not_mem_nil, or_false] at hv
      rcases hv with rfl | rfl
      · exact fine_visit firstHalf_good
      · exact fine_visit secondHalf_good) halves_all (by simp) (by decide +kernel) (by
      intro s hs
      rw [List.mem_singleton] at hs
      subst hs
      exact ⟨sampleStatement_ok, sampleStatement_amounts, sampleStatement_lines⟩) clean_all.2 (fun _ => by simp [machine, amounts]) (by
      intro s hs
      rw [List.mem_singleton] at hs
      subst hs
      exact statement_tidy) ⟨2026, 11, 16, 12, 0, 0, 0⟩ (Nat.le_refl 2)
  obtain ⟨start, h1, h2⟩ := C110_asks_transactions (given [] true).wants rfl (by unfold Time.Exists; decide) h
  have : start = ⟨2026, 11, 6, 0, 0, 0, 0⟩ := by
    refine onDay_unique (by unfold TimeOfDay; decide) (by decide) h1 ⟨?_, ?_, rfl, rfl, rfl, rfl⟩
    · exact (existing_iff _ _ _).2 (by decide)
    · decide
  subst this
  exact ⟨parts, sent, h, hp, h2⟩

/-- C110_transactions_sepa. -/
example : ∃ r sent, run (machine [firstHalf, secondHalf]) { flags with disableSepa := false } ⟨2026, 11, 16, 12, 0, 0, 0⟩ 2 .transactions = some (r, sent) ∧
    (∀ text, r ≠ .printed text) ∧ ∀ e ∈ sent, e.kind ≠ .job :=
  C110_transactions_sepa _ _ rfl _ 1

theorem hello_tidy : ∀ x ∈ allSaid Item.accountInformation hello.segments, TidyAccount x := by
  have key : ∀ x ∈ allSaid Item.accountInformation hello.segments, Printed.Clean x.connection.bankID ∧ Printed.Clean x.connection.accountID ∧
      Printed.Clean x.userId ∧ Printed.Clean x.currency ∧ Printed.Clean x.name1 ∧ Printed.Clean x.name2 ∧ Printed.Clean x.productId ∧
      x.connection.bankID ≠ [] := by
    unfold Printed.Clean
    decide +kernel
  intro x hx
  obtain ⟨h1, h2, h3, h4, h5, h6, h7, h8⟩ := key x hx
  exact ⟨h1, h2, h3, h4, h5, h6, h7, h8⟩

/-- C110_accounts: the bank tells an account in all answers, and it is printed twice. -/
example : ∃ a sent, run { machine [] with setup := repeating } flags ⟨2026, 11, 16, 12, 0, 0, 0⟩ 1 .accounts =
    some (.printed (accountTable numbers [a, a]), sent) := by
  have h : ∃ x, allSaid Item.accountInformation hello.segments = [x] :=
    ⟨(allSaid Item.accountInformation hello.segments).head (by decide +kernel), by decide +kernel⟩
  have := C110_accounts (m := { machine [] with setup := repeating }) (g := ⟨hello, hello⟩) (opening := hello) (closing := hello)
    { usual [] with }
    { given [] true with } ⟨fun _ => rfl, fun _ => rfl⟩ repeating_good hello_good hello_good hello_welcoming (fun _ => rfl) (fun _ => rfl)
    clean_all.1 (by
      intro x hx
      rcases List.mem_append.1 hx with hx | hx <;> exact hello_tidy x hx) ⟨2026, 11, 16, 12, 0, 0, 0⟩ 1
  obtain ⟨x, hx⟩ := h
  obtain ⟨sent, hs⟩ := this
  rw [hx] at hs
  exact ⟨_, sent, hs⟩

end

end Verif.Cli

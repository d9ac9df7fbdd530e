import Verif.Bank.RecoverLemmas

/-
C111: a client recovers from failures.

Whatever the bank and the transport did before, and whatever became of the calls before: when the
bank is willing again, the caller of a client gets what the bank reports.  A client that does not
know the bank, or has no client system ID, synchronises first; if the bank accepts that, the rest
is as for any client.  Nothing of an answer, however strange, can stop the client from writing its
next messages.

The other way round, a client that knows the bank, but was told no version of a request that it
can write, asks for nothing.  It stays in this state however often it is called.
-/

namespace Verif.Bank

open GoLib Element Element.Spec Segment Segment.Spec Message Message.Spec Dialog Domain Transport Client
open Swift.Spec (Statement)

variable {u : Setup BankSeg AccountInformation (AccountBalance AccountConnection) (AccountBalance InternationalConnection)
  StatusAcknowledgement}

/-! ## Specification -/

/-- A client that was made by `New` with a PIN and with texts that can be written, after any
history of calls. -/
def InUse (u : Setup BankSeg AccountInformation (AccountBalance AccountConnection) (AccountBalance InternationalConnection)
    StatusAcknowledgement) (s : CSt BankSeg AccountInformation) : Prop :=
  ∃ data config url v s0, Client.new u.world data config = .ok (url, v, s0) ∧ config.pin ≠ [] ∧
    (∀ t ∈ [config.bankId, config.accountId, config.pin, config.productName, config.productVersion], Latin1 t) ∧
    After u ⟨s0, 0⟩ s

/-- What has to come before a request of a client in this state: nothing if it knows the bank and
has a client system ID; otherwise the bank gives the answers to a synchronisation.  Given are the
segments that are known to be supported then, the step, and the accounts told by the bank. -/
inductive Welcomed (w : World BankSeg AccountInformation) (s : St BankSeg AccountInformation) :
    List (Str × Int) → Nat → List AccountInformation → Prop
  | known : s.d.bankParameterData.parameters.version ≠ 0 → s.d.clientSystemId ≠ c!"0" →
      Welcomed w s s.d.supportedSegments s.step []
  | greeted {g : Greeting} {id : Str} {b : BankParameters} : s.d.bankParameterData.parameters.version = 0 → Greets w s.step g →
      g.Good id b → Welcomed w s g.start.supported (s.step + 2) (allSaid Item.accountInformation g.start.segments)
  | again {g : Greeting} {id : Str} {b : BankParameters} : s.d.clientSystemId = c!"0" →
      g.start.supported = s.d.supportedSegments → Greets w s.step g →
      g.Good id b → Welcomed w s g.start.supported (s.step + 2) (allSaid Item.accountInformation g.start.segments)

/-! ## Proofs -/

theorem sync_id {σ α : Type} {w : World σ α} {s t : St σ α} {id : Str} (h : syncClientSystemId w s = (.ok id, t)) :
    t.d.clientSystemId = id := by
  rw [sync_eq] at h
  have h1 : ∀ {β γ : Type} {m : M σ α β} {f : β → M σ α γ} {s t : St σ α} {x : γ}, m.bind f s = (.ok x, t) →
      ∃ y r, f y r = (.ok x, t) := by
    intro β γ m f s t x h
    unfold M.bind at h
    rcases hm : m s with ⟨r, s'⟩
    rw [hm] at h
    cases r with
    | ok y => exact ⟨y, s', h⟩
    | err => cases h
    | panic => cases h
  obtain ⟨_, _, h⟩ := h1 h
  obtain ⟨_, _, h⟩ := h1 h
  obtain ⟨_, r, h⟩ := h1 h
  simp only [Prod.mk.injEq, Outcome.ok.injEq] at h
  rw [← h.2]
  exact h.1

/-- C111: no history of calls takes away what is needed to write the next messages. -/
theorem C111_writes (hd : u.world.decoders = decoders) (hw : u.world.views = views) (hc : ∀ k, Latin1 (u.world.controlRef k))
    {s : CSt BankSeg AccountInformation} (h : InUse u s) : Sane s.st.d := by
  obtain ⟨data, config, url, v, s0, hn, hp, ht, ha⟩ := h
  refine went_sane (legible hd hw) (after_went ha) ?_
  simp only [List.mem_cons, List.not_mem_nil, or_false, forall_eq_or_imp, forall_eq] at ht
  obtain ⟨t1, t2, t3, t4, t5⟩ := ht
  unfold Client.new at hn
  obtain ⟨⟨url', v'⟩, _, hn⟩ := Dialog.map_ok hn
  simp only [Prod.mk.injEq] at hn
  obtain ⟨rfl, rfl, rfl⟩ := hn
  have k0 := zero
  have k1 : Latin1 c!"999" := latin1_of_all (by decide)
  have k2 : Latin1 c!"S" := latin1_of_all (by decide)
  have k3 : Latin1 c!"V" := latin1_of_all (by decide)
  exact ⟨hp, k0, t1, t2, k0, t4, t5, k1, hc _, k0, t1, t2, k2, t3, k0, t1, t2, k3⟩

/-- The calls of a client in state `s` that can be made give the same as in state `t`. -/
structure Alike (u : Setup BankSeg AccountInformation (AccountBalance AccountConnection) (AccountBalance InternationalConnection)
    StatusAcknowledgement) (ss : List (Str × Int)) (s t : CSt BankSeg AccountInformation) : Prop where
  accounts : accounts u s = accounts u t
  transactions : ∀ L c build tf mark fuel q, build (newBuilder ss) = .ok q →
    transactions u L c build tf mark fuel s = transactions u L c build tf mark fuel t
  balances : ∀ c account all q, (newBuilder ss).balance account all = .ok q →
    accountBalances u c account all s = accountBalances u c account all t
  sepaBalances : ∀ c account all fuel mark q, (newBuilder ss).sepaBalance account all = .ok q →
    sepaAccountBalances u c account all fuel mark s = sepaAccountBalances u c account all fuel mark t

/-- A client that knows nothing about the bank synchronises first. -/
theorem alike_init {ss : List (Str × Int)} {s t : CSt BankSeg AccountInformation} (h1 : Client.init u s = (.ok (), t))
    (h2 : Client.init u t = (.ok (), t)) : Alike u ss s t where
  accounts := by
    unfold Client.accounts
    rw [h1, h2]
  transactions := by
    intro L c build tf mark fuel _ _
    unfold Client.transactions
    rw [h1, h2]
  balances := by
    intro c account all _ _
    unfold accountBalances
    rw [h1, h2]
  sepaBalances := by
    intro c account all fuel mark _ _
    cases fuel with
    | zero => rfl
    | succ n =>
      have hp : balancePage u c account all mark s = balancePage u c account all mark t := by
        unfold balancePage
        rw [h1, h2]
      unfold sepaAccountBalances
      rw [hp]

/-- A client without a client system ID synchronises in the dialog. -/
theorem alike_send {s : CSt BankSeg AccountInformation} {t : St BankSeg AccountInformation} (h1 : Client.init u s = (.ok (), s))
    (h2 : Client.init u ⟨t, s.ticks⟩ = (.ok (), ⟨t, s.ticks⟩)) (hi : Dialog.init u.world s.st = Dialog.init u.world t)
    (hsup : s.st.d.supportedSegments = t.d.supportedSegments) : Alike u t.d.supportedSegments s ⟨t, s.ticks⟩ := by
  have hj : ∀ j, sendMessage u.world j s.st = sendMessage u.world j t := by
    intro j
    unfold sendMessage
    unfold M.bind
    rw [hi]
  have hq : syncUserParameterData u.world s.st = syncUserParameterData u.world t := by
    unfold syncUserParameterData
    unfold M.bind
    rw [hi]
  have hsend : ∀ j n, send u j ⟨s.st, n⟩ = send u j ⟨t, n⟩ := by
    intro j n
    unfold send
    simp only [hj]
  constructor
  · unfold Client.accounts
    rw [h1, h2]
    simp only [hq]
  · intro L c build tf mark fuel q hb
    unfold Client.transactions
    rw [h1, h2]
    simp only
    cases fuel with
    | zero => rfl
    | succ n =>
      have hp : page u c build tf mark s = page u c build tf mark ⟨t, s.ticks⟩ := by
        unfold page transactionRequest
        simp only [hsup, hb, Outcome.map', hsend]
      unfold accountTransactions
      rw [hp]
  · intro c account all q hb
    unfold accountBalances
    rw [h1, h2]
    have := hsend (jobOf c q.seg) s.ticks
    simp only [hsup, hb]
    exact congrArg (fun r : Outcome (Decrypted BankSeg) × CSt BankSeg AccountInformation =>
      (r.1.bind fun m => readBalances u.views.balance m, r.2)) this
  · intro c account all fuel mark q hb
    cases fuel with
    | zero => rfl
    | succ n =>
      have hp : balancePage u c account all mark s = balancePage u c account all mark ⟨t, s.ticks⟩ := by
        unfold balancePage
        rw [h1, h2]
        have := hsend (jobOf c (if mark = [] then q else q.setContinuationMark mark).seg) s.ticks
        simp only [hsup, hb]
        exact congrArg (fun r : Outcome (Decrypted BankSeg) × CSt BankSeg AccountInformation =>
          (r.1.bind fun m => (readBalances u.views.sepaBalance m).bind fun bs => (continuation m).map' fun next => (bs, next), r.2)) this
      unfold sepaAccountBalances
      rw [hp]

/-- A call that begins with a synchronisation is as one that begins after it. -/
theorem resumed (hd : u.world.decoders = decoders) (hw : u.world.views = views) {s : CSt BankSeg AccountInformation}
    (hs : Sane s.st.d) {ss : List (Str × Int)} {n : Nat} {acs : List AccountInformation} (h : Welcomed u.world s.st ss n acs) :
    ∃ t : CSt BankSeg AccountInformation, Settled t.st.d ∧ t.st.step = n ∧ t.st.d.supportedSegments = ss ∧
      t.st.d.accounts = s.st.d.accounts ++ acs ∧ Alike u ss s t := by
  cases h with
  | known h1 h2 => exact ⟨s, Sane.settled hs h2 h1, rfl, rfl, by simp, alike_init (init_settled (Sane.settled hs h2 h1)) (init_settled (Sane.settled hs h2 h1))⟩
  | greeted h0 hg hb =>
    obtain ⟨t, k1, k2, k3, k4, k5⟩ := init_first hd hw hb hg (Sane.configured hs) h0
    exact ⟨t, k3, k2, k4, k5, alike_init k1 (init_settled k3)⟩
  | again h0 hsame hg hb =>
    by_cases hv : s.st.d.bankParameterData.parameters.version = 0
    · obtain ⟨t, k1, k2, k3, k4, k5⟩ := init_first hd hw hb hg (Sane.configured hs) hv
      exact ⟨t, k3, k2, k4, k5, alike_init k1 (init_settled k3)⟩
    · obtain ⟨t, g1, g2, k1, -, -, -, k2, k3, k4, k5⟩ := sync_served hd hw hb hg.1 hg.2 (Sane.configured hs)
      have hid := sync_id k1
      have hi : Dialog.init u.world s.st = Dialog.init u.world t := by
        have e1 : ensureClientSystemId u.world s.st = (.ok (), t) := by
          unfold ensureClientSystemId
          rw [if_pos h0]
          unfold M.bind
          rw [k1]
          simp only [M.modify, ← hid]
        have e2 : ensureClientSystemId u.world t = (.ok (), t) := by
          unfold ensureClientSystemId
          rw [if_neg k3.synchronised]
        unfold Dialog.init M.bind
        rw [e1, e2]
      have hinit : Client.init u s = (.ok (), s) := by
        unfold Client.init
        rw [if_neg hv]
      refine ⟨⟨t, s.ticks⟩, k3, k2, k4, k5, ?_⟩
      rw [← k4]
      exact alike_send hinit (init_settled k3) hi (by rw [k4, hsame])

/-! ## Recovering -/

/-- C111: whatever happened before, the caller of `AccountTransactions` gets the transactions when
the bank is willing. -/
theorem C111_transactions (hd : u.world.decoders = decoders) (hw : u.world.views = views) (hc : ∀ k, Latin1 (u.world.controlRef k))
    {now : Time.Civil} (hv : u.views = clientViews now) (hclock : StrictMono u.clock) {L : Swift.Lib} (h1 : 1000 ≤ L.year)
    (h2 : L.year ≤ 9999) {c : Client} {account : AccountConnection} {all : Bool} {tf : Domain.Timeframe} {mark : Str} {fuel : Nat}
    {s : CSt BankSeg AccountInformation} (hs : InUse u s) {supported : List (Str × Int)} {n : Nat} {told : List AccountInformation}
    (hwel : Welcomed u.world s.st supported n told)
    (hsup : (c!"HIKAZS", (5 : Int)) ∈ supported ∨ (c!"HIKAZS", (6 : Int)) ∈ supported)
    (htext : ∀ t ∈ [account.accountID, account.sub, account.bankID, mark], Latin1 t) {vs : List Visit}
    (hserve : Serves u.world n vs) (hg : ∀ v ∈ vs, v.Good) (hall : AllPages (vs.map Visit.page)) (hf : vs.length ≤ fuel)
    {ss : List Statement} (hne : ss ≠ [])
    (hss : (vs.map fun v => v.page.booked).flatten = (ss.map Statement.text).flatten)
    (hok : ∀ s ∈ ss, s.Ok (L.year / 100 * 100) ∧ Swift.Amounts L s ∧ ∀ e ∈ s.entries, ¬ Swift.Spec.Crash e.rest) :
    ∃ (parts : List (List (Swift.Transaction L.F))) (t : CSt BankSeg AccountInformation),
      transactions u L c (plainBuilder account all) tf mark fuel s = some (.ok parts.flatten, t) ∧
      List.Forall₂ (fun s p => List.Forall₂ (Swift.Reported L (L.year / 100 * 100) s) s.entries p) ss parts := by
  obtain ⟨t, k1, k2, k3, -, k4⟩ := resumed hd hw (C111_writes hd hw hc hs) hwel
  obtain ⟨q, hq, -⟩ := transaction_request (account := account) (all := all) hsup
  rw [k4.transactions L c (plainBuilder account all) tf mark fuel q hq]
  exact C102_transactions hd hw hv hclock h1 h2 k1 (by rw [k3]; exact hsup) htext (by rw [k2]; exact hserve) hg hall hf hne hss hok

/-- C111: whatever happened before, the caller of `AccountBalances` gets the balances when the bank
is willing. -/
theorem C111_balances (hd : u.world.decoders = decoders) (hw : u.world.views = views) (hc : ∀ k, Latin1 (u.world.controlRef k))
    {now : Time.Civil} (hv : u.views = clientViews now) {c : Client} {account : AccountConnection} {all : Bool}
    {s : CSt BankSeg AccountInformation} (hs : InUse u s) {supported : List (Str × Int)} {n : Nat} {told : List AccountInformation}
    (hwel : Welcomed u.world s.st supported n told)
    (hsup : (c!"HISALS", (5 : Int)) ∈ supported ∨ (c!"HISALS", (6 : Int)) ∈ supported)
    (htext : ∀ t ∈ [account.accountID, account.sub, account.bankID], Latin1 t) {v : Visit}
    (hserve : Serves u.world n [v]) (hg : v.Good) (hr : ¬ v.page.Refuses) (hne : v.page.reports ≠ []) :
    ∃ bs, (accountBalances u c account all s).1 = .ok bs ∧ List.Forall₂ (fun r b => r.ReportedAs none b) v.page.reports bs := by
  obtain ⟨t, k1, k2, k3, -, k4⟩ := resumed hd hw (C111_writes hd hw hc hs) hwel
  obtain ⟨q, hq, -⟩ := balance_request (account := account) (all := all) hsup
  rw [k4.balances c account all q hq]
  exact C102_balances hd hw hv k1 (by rw [k3]; exact hsup) htext (by rw [k2]; exact hserve) hg hr hne

/-- C111: whatever happened before, the caller of `SepaAccountBalances` gets the balances of all
pages when the bank is willing. -/
theorem C111_sepa_balances (hd : u.world.decoders = decoders) (hw : u.world.views = views) (hc : ∀ k, Latin1 (u.world.controlRef k))
    {now : Time.Civil} (hv : u.views = clientViews now) {c : Client} {account : InternationalConnection} {all : Bool} {mark : Str}
    {fuel : Nat} {s : CSt BankSeg AccountInformation} (hs : InUse u s) {supported : List (Str × Int)} {n : Nat}
    {told : List AccountInformation} (hwel : Welcomed u.world s.st supported n told)
    (hsup : (c!"HISALS", (7 : Int)) ∈ supported ∨ (c!"HISALS", (8 : Int)) ∈ supported)
    (htext : ∀ t ∈ [account.iban, account.bic, account.accountID, account.sub, account.bankID, mark], Latin1 t) {vs : List Visit}
    (hserve : Serves u.world n vs) (hall : AllPages (vs.map Visit.page)) (hf : vs.length ≤ fuel)
    (hg : ∀ v ∈ vs, v.Good ∧ v.page.sepaReports ≠ [] ∧ ∀ p ∈ v.page.segments, p.item.report.isSome = p.item.sepaReport.isSome) :
    ∃ bs t, sepaAccountBalances u c account all fuel mark s = some (.ok bs, t) ∧
      List.Forall₂ (fun r b => r.1.ReportedAs r.2 b) (vs.flatMap fun v => v.page.sepaReports) bs := by
  obtain ⟨t, k1, k2, k3, -, k4⟩ := resumed hd hw (C111_writes hd hw hc hs) hwel
  obtain ⟨q, hq, -⟩ := sepa_request (account := account) (all := all) hsup
  rw [k4.sepaBalances c account all fuel mark q hq]
  exact C102_sepa_balances hd hw hv k1 (by rw [k3]; exact hsup) htext (by rw [k2]; exact hserve) hall hf hg

/-- C111: whatever happened before, the caller of `Accounts` gets the accounts when the bank is
willing; the accounts told before are still there. -/
theorem C111_accounts (hd : u.world.decoders = decoders) (hw : u.world.views = views) (hc : ∀ k, Latin1 (u.world.controlRef k))
    {s : CSt BankSeg AccountInformation} (hs : InUse u s) {supported : List (Str × Int)} {n : Nat} {told : List AccountInformation}
    (hwel : Welcomed u.world s.st supported n told) {opening closing : Answer} (ho : opening.Good) (hcl : closing.Good)
    (hopen : Welcoming opening.envelope opening.segments)
    (h1 : ∀ b, (u.world.env (n + 1)).transport b = .ok (opening.bytes, true))
    (h2 : ∀ b, (u.world.env (n + 2)).transport b = .ok (closing.bytes, true)) :
    (accounts u s).1 = .ok (s.st.d.accounts ++ told ++ allSaid Item.accountInformation opening.segments) := by
  obtain ⟨t, k1, k2, k3, k5, k4⟩ := resumed hd hw (C111_writes hd hw hc hs) hwel
  rw [k4.accounts, ← k5]
  exact accounts_served hd hw k1 ho hcl hopen (by rw [k2]; exact h1) (by rw [k2]; exact h2)

/-! ## Not recovering -/

/-- C111: a client that knows the bank, but was told no version of the balance request that it can
write, sends nothing, however often it is asked for balances. -/
theorem C111_stuck_balances {s : CSt BankSeg AccountInformation} (h0 : s.st.d.bankParameterData.parameters.version ≠ 0)
    (h5 : (c!"HISALS", (5 : Int)) ∉ s.st.d.supportedSegments) (h6 : (c!"HISALS", (6 : Int)) ∉ s.st.d.supportedSegments)
    (calls : List (Client × AccountConnection × Bool)) :
    (calls.foldl (fun t x => (accountBalances u x.1 x.2.1 x.2.2 t).2) s) = s ∧
    ∀ x ∈ calls, (accountBalances u x.1 x.2.1 x.2.2 s).1 = .err := by
  have key : ∀ x : Client × AccountConnection × Bool, accountBalances u x.1 x.2.1 x.2.2 s = (.err, s) := by
    intro x
    have hb : (newBuilder s.st.d.supportedSegments).balance x.2.1 x.2.2 = .err :=
      (C32_balance s.st.d.supportedSegments x.2.1 x.2.2).2.2 ⟨h5, h6⟩
    unfold accountBalances Client.init
    rw [if_neg h0]
    simp only [hb]
  constructor
  · induction calls with
    | nil => rfl
    | cons x xs ih => rw [List.foldl_cons, key x]; exact ih
  · intro x _
    rw [key x]

/-- C111: and likewise for `AccountTransactions`. -/
theorem C111_stuck_transactions {s : CSt BankSeg AccountInformation} (h0 : s.st.d.bankParameterData.parameters.version ≠ 0)
    (h5 : (c!"HIKAZS", (5 : Int)) ∉ s.st.d.supportedSegments) (h6 : (c!"HIKAZS", (6 : Int)) ∉ s.st.d.supportedSegments)
    (L : Swift.Lib) (c : Client) (account : AccountConnection) (all : Bool) (tf : Domain.Timeframe) (mark : Str) (fuel : Nat) :
    transactions u L c (plainBuilder account all) tf mark (fuel + 1) s = some (.err, s) := by
  have hb : (newBuilder s.st.d.supportedSegments).transactions account all = .err :=
    (C32_transactions s.st.d.supportedSegments account all).2.2 ⟨h5, h6⟩
  unfold transactions Client.init
  rw [if_neg h0]
  simp only [accountTransactions, page, transactionRequest, plainBuilder, hb, Outcome.map', Option.map_some, Outcome.bind]

/-! ## Examples -/

namespace Sample

/-- The first message gets lost; afterwards the bank greets, and goes on with these answers. -/
def losing (pages : List Answer) : World BankSeg AccountInformation where
  decoders := decoders
  views := views
  controlRef _ := c!"1234"
  env n := if n ≤ 1 then { (answering pages).env 0 with transport := fun _ => .err } else (greeting_then pages).env (n - 1)

/-- A client of that bank. -/
def patient (pages : List Answer) : Setup BankSeg AccountInformation (AccountBalance AccountConnection)
    (AccountBalance InternationalConnection) StatusAcknowledgement := { served pages with world := losing pages }

/-- The settings of the client. -/
def settled : Config := ⟨c!"10000000", c!"user", c!"secret", c!"https://bank", 300, [], []⟩

/-- The client as `New` makes it. -/
def made (w : World BankSeg AccountInformation) : St BankSeg AccountInformation :=
  match Client.new w [] settled with
  | .ok r => r.2.2
  | _ => fresh

/-- The client after a first call that failed. -/
def failed (pages : List Answer) : CSt BankSeg AccountInformation :=
  (accountBalances (patient pages) .fints300 ⟨c!"123456", [], 280, c!"10020030"⟩ false ⟨made (losing pages), 0⟩).2

theorem made_new (w : World BankSeg AccountInformation) : ∃ url v, Client.new w [] settled = .ok (url, v, made w) := ⟨_, _, rfl⟩

theorem made_inUse {u : Setup BankSeg AccountInformation (AccountBalance AccountConnection) (AccountBalance InternationalConnection)
    StatusAcknowledgement} {s : CSt BankSeg AccountInformation} (h : After u ⟨made u.world, 0⟩ s) (ht : ∀ t ∈ [settled.bankId, settled.accountId,
    settled.pin, settled.productName, settled.productVersion], Latin1 t) : InUse u s := by
  obtain ⟨url, v, hn⟩ := made_new u.world
  exact ⟨[], settled, url, v, made u.world, hn, by decide, ht, h⟩

theorem plain_reference : Latin1 c!"1234" := latin1_of_all (by decide)

theorem settled_texts : ∀ t ∈ [settled.bankId, settled.accountId, settled.pin, settled.productName, settled.productVersion], Latin1 t := by
  unfold Latin1; decide

theorem failed_inUse (pages : List Answer) : InUse (patient pages) (failed pages) :=
  made_inUse (.balances .fints300 ⟨c!"123456", [], 280, c!"10020030"⟩ false .nothing) settled_texts

/-- What is known after the call that failed: it was the first step, and told nothing. -/
def Lost (pages : List Answer) : Prop :=
  (accountBalances (patient pages) .fints300 ⟨c!"123456", [], 280, c!"10020030"⟩ false ⟨made (losing pages), 0⟩).1.map'
    (fun _ => ()) = .err ∧
  (failed pages).st.sent.length = 1 ∧ (failed pages).st.step = 1 ∧ (failed pages).st.d.bankParameterData.parameters.version = 0 ∧
  (failed pages).st.d.accounts = []

theorem lost (pages : List Answer) : Lost pages := by
  obtain ⟨_, _, hn⟩ := made_new (losing pages)
  obtain ⟨hconf, hver, hacc, hstep, hsent⟩ := C103_new hn
    (by decide) settled_texts (fun _ => plain_reference)
  obtain ⟨e, a1, -, a3⟩ := syncRequest_answered (losing pages) (made (losing pages)) hconf.sends
  have a4 : e.reply = .err := by
    rw [a3, hstep]
    rfl
  have hb : accountBalances (patient pages) .fints300 ⟨c!"123456", [], 280, c!"10020030"⟩ false ⟨made (losing pages), 0⟩ =
      (.err, ⟨afterSync (made (losing pages)) e, 0⟩) := by
    have hs : syncClientSystemId (patient pages).world (made (losing pages)) = (.err, afterSync (made (losing pages)) e) := by
      have hw : (patient pages).world = losing pages := rfl
      rw [hw]
      unfold syncClientSystemId M.bind
      rw [a1, a4]
    unfold accountBalances Client.init
    rw [if_pos hver]
    simp only [hs, Outcome.map']
  unfold Lost failed
  rw [hb]
  refine ⟨rfl, ?_, ?_, hver, hacc⟩
  · simp [afterSync, hsent]
  · simp [afterSync, hstep]

theorem losing_greets (pages : List Answer) : Welcomed (patient pages).world (failed pages).st hello.supported 3
    (allSaid Item.accountInformation hello.segments) := by
  have h := lost pages
  have := Welcomed.greeted (w := (patient pages).world) h.2.2.2.1 (g := greeting) ⟨by rw [h.2.2.1]; exact fun _ => rfl,
    by rw [h.2.2.1]; exact fun _ => rfl⟩ greeting_good
  rw [h.2.2.1] at this
  exact this

theorem losing_serves (a b : Answer) : Serves (patient [a, b]).world 3 [⟨fine, a, fine⟩, ⟨fine, b, fine⟩] :=
  ⟨fun _ => rfl, fun _ => rfl, fun _ => rfl, fun _ => rfl, fun _ => rfl, fun _ => rfl, trivial⟩

end Sample

section
open Sample Swift

/-- The first message of a new client got lost.  The next caller gets both transactions of the
statement on two pages. -/
example : ∃ (parts : List (List (Transaction sampleLib.F))) (t : CSt BankSeg AccountInformation),
    transactions (patient [firstHalf, secondHalf]) sampleLib .fints300 (plainBuilder ⟨c!"123456", [], 280, c!"10020030"⟩ false)
      ⟨⟨2026, 1, 1, 0, 0, 0, 0⟩, ⟨2026, 1, 5, 0, 0, 0, 0⟩⟩ [] 5 (failed [firstHalf, secondHalf]) = some (.ok parts.flatten, t) ∧
    List.Forall₂ (fun s p => List.Forall₂ (Reported sampleLib 2000 s) s.entries p) [sampleStatement] parts :=
  C111_transactions (vs := [⟨fine, firstHalf, fine⟩, ⟨fine, secondHalf, fine⟩]) (now := Time.zeroTime) rfl rfl
    (fun _ => plain_reference) rfl
    (fun a b h => by simpa [patient, served] using h) (by decide) (by decide) (failed_inUse _)
    (losing_greets _)
    (by decide +kernel) (by unfold Latin1; decide)
    (losing_serves _ _) (by
      intro v hv
      simp only [List.mem_cons, List.not_mem_nil, or_false] at hv
      rcases hv with rfl | rfl
      · exact fine_visit firstHalf_good
      · exact fine_visit secondHalf_good) halves_all (by decide) (by simp) (by decide +kernel) (by
      intro s hs
      rw [List.mem_singleton] at hs
      subst hs
      exact ⟨sampleStatement_ok, sampleStatement_amounts, sampleStatement_lines⟩)

end

section
open Sample

/-- After a failure, the caller gets the balance. -/
example : ∃ bs, (accountBalances (patient [⟨envelope, [⟨.overall [⟨10, [], c!"ok", []⟩], 2, none⟩, balance]⟩]) .fints300
      ⟨c!"123456", [], 280, c!"10020030"⟩ false (failed [⟨envelope, [⟨.overall [⟨10, [], c!"ok", []⟩], 2, none⟩, balance]⟩])).1 = .ok bs ∧
    List.Forall₂ (fun r b => r.ReportedAs none b) [sampleReport] bs :=
  C111_balances (v := ⟨fine, ⟨envelope, [⟨.overall [⟨10, [], c!"ok", []⟩], 2, none⟩, balance]⟩, fine⟩) (now := Time.zeroTime)
    rfl rfl (fun _ => plain_reference) rfl (failed_inUse _) (losing_greets _) (by decide +kernel)
    (by unfold Latin1; decide) ⟨fun _ => rfl, fun _ => rfl, fun _ => rfl, trivial⟩
    (fine_visit (answer_of (by
      intro p hp
      simp only [List.mem_cons, List.not_mem_nil, or_false] at hp
      rcases hp with rfl | rfl
      · exact overall_good
      · exact balance_good) (by decide +kernel))) (fine_last (by decide +kernel)).2 (by simp [Answer.reports, balance, Item.report])

/-- After a failure, the caller gets the balances of both pages. -/
example : ∃ bs t, sepaAccountBalances (patient [firstBalance, secondBalance]) .fints300
      ⟨c!"DE00100200300000123456", c!"ABCDDEFF", c!"123456", [], 280, c!"10020030"⟩ false 2 []
      (failed [firstBalance, secondBalance]) = some (.ok bs, t) ∧
    List.Forall₂ (fun r b => r.1.ReportedAs r.2 b) [(sepaReport, none), (sepaReport, none)] bs :=
  C111_sepa_balances (vs := [⟨fine, firstBalance, fine⟩, ⟨fine, secondBalance, fine⟩]) (now := Time.zeroTime) rfl rfl
    (fun _ => plain_reference) rfl (failed_inUse _) (losing_greets _) (by decide +kernel)
    (by unfold Latin1; decide) (losing_serves _ _)
    (two_pages (more_continues (by decide +kernel)) (fine_last (by decide +kernel))) (by decide) (by
      intro v hv
      simp only [List.mem_cons, List.not_mem_nil, or_false] at hv
      rcases hv with rfl | rfl
      · refine ⟨fine_visit (answer_of (by
          intro p hp
          simp only [List.mem_cons, List.not_mem_nil, or_false] at hp
          rcases hp with rfl | rfl | rfl
          · exact overall_good
          · exact more_good
          · exact sepaBalance_good) (by decide +kernel)), by simp [firstBalance, Answer.sepaReports, more, sepaBalance, Item.sepaReport], ?_⟩
        intro p hp
        simp only [firstBalance, List.mem_cons, List.not_mem_nil, or_false] at hp
        rcases hp with rfl | rfl | rfl <;> rfl
      · refine ⟨fine_visit (answer_of (by
          intro p hp
          simp only [List.mem_cons, List.not_mem_nil, or_false] at hp
          rcases hp with rfl | rfl
          · exact overall_good
          · exact sepaBalance_good) (by decide +kernel)), by simp [secondBalance, Answer.sepaReports, sepaBalance, Item.sepaReport], ?_⟩
        intro p hp
        simp only [secondBalance, List.mem_cons, List.not_mem_nil, or_false] at hp
        rcases hp with rfl | rfl <;> rfl)

/-- After a failure, the caller gets the account that the bank told in the synchronisation. -/
example : (accounts (patient [fine]) (failed [fine])).1 = .ok (allSaid Item.accountInformation hello.segments) ∧
    (allSaid Item.accountInformation hello.segments).length = 1 := by
  have hl := lost [fine]
  have h := C111_accounts (u := patient [fine]) rfl rfl (fun _ => plain_reference) (failed_inUse [fine]) (losing_greets _)
    (opening := fine) (closing := fine) fine_good fine_good (fine_visit fine_good).welcome (fun _ => rfl) (fun _ => rfl)
  rw [hl.2.2.2.2] at h
  have e : allSaid Item.accountInformation fine.segments = [] := by decide +kernel
  rw [e, List.append_nil, List.nil_append] at h
  exact ⟨h, by decide +kernel⟩

/-- A bank that answers the first message with parameters that name no request, and is as the
repeating one afterwards. -/
def curt : Setup BankSeg AccountInformation (AccountBalance AccountConnection) (AccountBalance InternationalConnection)
    StatusAcknowledgement :=
  { repeating with world := { repeating.world with env := fun n => if n ≤ 2 then { repeating.world.env n with
      transport := fun _ => .ok ((⟨envelope, answer⟩ : Answer).bytes, true) } else repeating.world.env n } }

/-- A client after its first call. -/
def called (u : Setup BankSeg AccountInformation (AccountBalance AccountConnection) (AccountBalance InternationalConnection)
    StatusAcknowledgement) : CSt BankSeg AccountInformation :=
  (accountBalances u .fints300 ⟨c!"123456", [], 280, c!"10020030"⟩ false ⟨made u.world, 0⟩).2

theorem called_inUse (u : Setup BankSeg AccountInformation (AccountBalance AccountConnection) (AccountBalance InternationalConnection)
    StatusAcknowledgement) : InUse u (called u) :=
  made_inUse (.balances .fints300 ⟨c!"123456", [], 280, c!"10020030"⟩ false .nothing) settled_texts

theorem called_err {t : St BankSeg AccountInformation} {id : Str} (hver : (made u.world).d.bankParameterData.parameters.version = 0)
    (k : syncClientSystemId u.world (made u.world) = (.ok id, t))
    (hb : (newBuilder t.d.supportedSegments).balance ⟨c!"123456", [], 280, c!"10020030"⟩ false = .err) : called u = ⟨t, 0⟩ := by
  unfold called accountBalances Client.init
  rw [if_pos hver]
  simp only [k, Outcome.map', hb]

/-- The answer that names no request. -/
def curtAnswer : Answer := ⟨envelope, answer⟩

theorem curt_good : curtAnswer.Good := answer_of answer_good (by decide +kernel)

theorem curt_greeting : Greeting.Good ⟨curtAnswer, curtAnswer⟩ c!"sys+1" ⟨12, ⟨280, c!"10000000"⟩, c!"Bank: A+B", 1, 9999, 0, 0⟩ where
  start := curt_good
  closing := curt_good
  welcome := welcoming
  system := by decide +kernel
  assigned := by decide
  bank := by decide +kernel
  version := by decide
  ends := by
    rintro ⟨a, h1, h2⟩
    have := welcoming.accepted a h1
    omega

theorem told_spec : (called curt).st.sent.length = 2 ∧ Settled (called curt).st.d ∧
    ∀ p ∈ (called curt).st.d.supportedSegments, p.1 ≠ c!"HISALS" ∧ p.1 ≠ c!"HIKAZS" := by
  obtain ⟨_, _, hn⟩ := made_new curt.world
  obtain ⟨hconf, hver, hacc, hstep, hsent⟩ := C103_new hn
    (by decide) settled_texts (fun _ => plain_reference)
  obtain ⟨t, g1, g2, k1, k2, -, -, -, k3, k4, -⟩ := sync_served (w := curt.world) rfl rfl curt_greeting
    (by rw [hstep]; exact fun _ => rfl) (by rw [hstep]; exact fun _ => rfl) hconf
  have hno : ∀ p ∈ t.d.supportedSegments, p.1 ≠ c!"HISALS" ∧ p.1 ≠ c!"HIKAZS" := by
    rw [k4]
    decide +kernel
  have hb : (newBuilder t.d.supportedSegments).balance ⟨c!"123456", [], 280, c!"10020030"⟩ false = .err :=
    (C32_balance t.d.supportedSegments _ _).2.2 ⟨fun h => (hno _ h).1 rfl, fun h => (hno _ h).1 rfl⟩
  have he : called curt = ⟨t, 0⟩ := called_err hver k1 hb
  rw [he]
  refine ⟨?_, k3, hno⟩
  simp only [k2, hsent]
  rfl

/-- The bank now names the requests in all its answers, but the client does not ask: two more calls
fail, and nothing was sent but the two messages of the synchronisation. -/
example : InUse curt (called curt) ∧ (called curt).st.sent.length = 2 ∧
    ([(.fints300, ⟨c!"1", [], 280, c!"2"⟩, false), (.fints300, ⟨c!"3", [], 280, c!"4"⟩, true)].foldl
      (fun t x => (accountBalances curt x.1 x.2.1 x.2.2 t).2) (called curt)) = called curt :=
  ⟨called_inUse curt, told_spec.1, (C111_stuck_balances told_spec.2.1.parameters (fun h => (told_spec.2.2 _ h).1 rfl)
    (fun h => (told_spec.2.2 _ h).1 rfl)
    [(.fints300, ⟨c!"1", [], 280, c!"2"⟩, false), (.fints300, ⟨c!"3", [], 280, c!"4"⟩, true)]).1⟩

/-- The same for transactions. -/
example : transactions curt Swift.sampleLib .fints300 (plainBuilder ⟨c!"1", [], 280, c!"2"⟩ true)
    ⟨⟨2026, 1, 1, 0, 0, 0, 0⟩, ⟨2026, 1, 5, 0, 0, 0, 0⟩⟩ [] 1 (called curt) = some (.err, called curt) :=
  C111_stuck_transactions told_spec.2.1.parameters (fun h => (told_spec.2.2 _ h).2 rfl) (fun h => (told_spec.2.2 _ h).2 rfl) _ _ _ _ _ _ 0

end

end Verif.Bank

import Verif.Bank.FirstLemmas

/-
C103: what callers of a new client get.

A new client knows nothing about the bank.  Its first call starts with a synchronisation, and goes
on with the request.  When the bank answers the synchronisation with a client system ID and its
parameters, accepts its end, and supports the request, the caller gets what C102 says.  `Accounts`
gets the accounts of the answers one after the other.
-/

namespace Verif.Bank

open GoLib Element Element.Spec Segment Segment.Spec Message Message.Spec Dialog Domain Transport Client
open Swift.Spec (Statement)

variable {u : Setup BankSeg AccountInformation (AccountBalance AccountConnection) (AccountBalance InternationalConnection)
  StatusAcknowledgement}

/-- From the step `n` on, the bank gives the answers to a synchronisation. -/
def Greets (w : World BankSeg AccountInformation) (n : Nat) (g : Greeting) : Prop :=
  (∀ b, (w.env (n + 1)).transport b = .ok (g.start.bytes, true)) ∧ (∀ b, (w.env (n + 2)).transport b = .ok (g.closing.bytes, true))

/-- The first call synchronises. -/
theorem init_first (hd : u.world.decoders = decoders) (hw : u.world.views = views) {g : Greeting} {id : Str} {b : BankParameters}
    (hg : g.Good id b) {s : CSt BankSeg AccountInformation} (hs : Greets u.world s.st.step g) (hc : Configured s.st.d)
    (h0 : s.st.d.bankParameterData.parameters.version = 0) :
    ∃ t, Client.init u s = (.ok (), t) ∧ t.st.step = s.st.step + 2 ∧ Settled t.st.d ∧ t.st.d.supportedSegments = g.start.supported ∧
      t.st.d.accounts = s.st.d.accounts ++ allSaid Item.accountInformation g.start.segments := by
  obtain ⟨t, g1, g2, k1, -, -, -, k2, k3, k4, k5⟩ := sync_served hd hw hg hs.1 hs.2 hc
  refine ⟨⟨t, s.ticks⟩, ?_, k2, k3, k4, k5⟩
  unfold Client.init
  rw [if_pos h0, k1]
  rfl

/-- C103: a client made by `New` with a PIN, and with texts that can be written, is such a client. -/
theorem C103_new {w : World BankSeg AccountInformation} {data : List Bankinfo.BankInfo} {config : Config} {url : Str} {v : Client}
    {s : St BankSeg AccountInformation} (h : Client.new w data config = .ok (url, v, s)) (hp : config.pin ≠ [])
    (ht : ∀ t ∈ [config.bankId, config.accountId, config.pin, config.productName, config.productVersion], Latin1 t)
    (hc : ∀ k, Latin1 (w.controlRef k)) :
    Configured s.d ∧ s.d.bankParameterData.parameters.version = 0 ∧ s.d.accounts = [] ∧ s.step = 0 ∧ s.sent = [] := by
  simp only [List.mem_cons, List.not_mem_nil, or_false, forall_eq_or_imp, forall_eq] at ht
  obtain ⟨t1, t2, t3, t4, t5⟩ := ht
  unfold Client.new at h
  obtain ⟨⟨url', v'⟩, _, h⟩ := Dialog.map_ok h
  simp only [Prod.mk.injEq] at h
  obtain ⟨rfl, rfl, rfl⟩ := h
  have k0 := zero
  have k1 : Latin1 c!"999" := latin1_of_all (by decide)
  have k2 : Latin1 c!"S" := latin1_of_all (by decide)
  have k3 : Latin1 c!"V" := latin1_of_all (by decide)
  refine ⟨⟨hp, ?_⟩, rfl, rfl, rfl, rfl⟩
  simp only [setPin, M.modify, newPinTanDialog, signatureProvider, cryptoProvider, pinTanKeyName, List.mem_cons, List.not_mem_nil,
    or_false, forall_eq_or_imp, forall_eq]
  exact ⟨k0, t1, t2, t4, t5, k1, hc _, k0, t1, t2, k2, t3, t1, t2, k3⟩

/-- C103: the first caller of `AccountTransactions` gets the transactions. -/
theorem C103_transactions (hd : u.world.decoders = decoders) (hw : u.world.views = views) {now : Time.Civil}
    (hv : u.views = clientViews now) (hclock : StrictMono u.clock) {L : Swift.Lib} (h1 : 1000 ≤ L.year) (h2 : L.year ≤ 9999)
    {c : Client} {account : AccountConnection} {all : Bool} {tf : Domain.Timeframe} {mark : Str} {fuel : Nat}
    {s : CSt BankSeg AccountInformation} (hconf : Configured s.st.d) (h0 : s.st.d.bankParameterData.parameters.version = 0)
    {g : Greeting} {id : Str} {b : BankParameters} (hgreet : Greets u.world s.st.step g) (hgood : g.Good id b)
    (hsup : (c!"HIKAZS", (5 : Int)) ∈ g.start.supported ∨ (c!"HIKAZS", (6 : Int)) ∈ g.start.supported)
    (htext : ∀ t ∈ [account.accountID, account.sub, account.bankID, mark], Latin1 t) {vs : List Visit}
    (hserve : Serves u.world (s.st.step + 2) vs) (hg : ∀ v ∈ vs, v.Good) (hall : AllPages (vs.map Visit.page)) (hf : vs.length ≤ fuel)
    {ss : List Statement} (hne : ss ≠ [])
    (hss : (vs.map fun v => v.page.booked).flatten = (ss.map Statement.text).flatten)
    (hok : ∀ s ∈ ss, s.Ok (L.year / 100 * 100) ∧ Swift.Amounts L s ∧ ∀ e ∈ s.entries, ¬ Swift.Spec.Crash e.rest) :
    ∃ (parts : List (List (Swift.Transaction L.F))) (t : CSt BankSeg AccountInformation),
      transactions u L c (plainBuilder account all) tf mark fuel s = some (.ok parts.flatten, t) ∧
      List.Forall₂ (fun s p => List.Forall₂ (Swift.Reported L (L.year / 100 * 100) s) s.entries p) ss parts := by
  obtain ⟨t, k1, k2, k3, k4, -⟩ := init_first hd hw hgood hgreet hconf h0
  have he : transactions u L c (plainBuilder account all) tf mark fuel s =
      transactions u L c (plainBuilder account all) tf mark fuel t := by
    unfold transactions
    rw [k1, init_settled k3]
  rw [he]
  exact C102_transactions hd hw hv hclock h1 h2 k3 (by rw [k4]; exact hsup) htext (by rw [k2]; exact hserve) hg hall hf hne hss hok

/-- C103: the first caller of `AccountBalances` gets the balances. -/
theorem C103_balances (hd : u.world.decoders = decoders) (hw : u.world.views = views) {now : Time.Civil}
    (hv : u.views = clientViews now) {c : Client} {account : AccountConnection} {all : Bool}
    {s : CSt BankSeg AccountInformation} (hconf : Configured s.st.d) (h0 : s.st.d.bankParameterData.parameters.version = 0)
    {g : Greeting} {id : Str} {b : BankParameters} (hgreet : Greets u.world s.st.step g) (hgood : g.Good id b)
    (hsup : (c!"HISALS", (5 : Int)) ∈ g.start.supported ∨ (c!"HISALS", (6 : Int)) ∈ g.start.supported)
    (htext : ∀ t ∈ [account.accountID, account.sub, account.bankID], Latin1 t) {v : Visit}
    (hserve : Serves u.world (s.st.step + 2) [v]) (hg : v.Good) (hr : ¬ v.page.Refuses) (hne : v.page.reports ≠ []) :
    ∃ bs, (accountBalances u c account all s).1 = .ok bs ∧ List.Forall₂ (fun r b => r.ReportedAs none b) v.page.reports bs := by
  obtain ⟨t, k1, k2, k3, k4, -⟩ := init_first hd hw hgood hgreet hconf h0
  have he : accountBalances u c account all s = accountBalances u c account all t := by
    unfold accountBalances
    rw [k1, init_settled k3]
  rw [he]
  exact C102_balances hd hw hv k3 (by rw [k4]; exact hsup) htext (by rw [k2]; exact hserve) hg hr hne

/-- C103: the first caller of `SepaAccountBalances` gets the balances of all pages. -/
theorem C103_sepa_balances (hd : u.world.decoders = decoders) (hw : u.world.views = views) {now : Time.Civil}
    (hv : u.views = clientViews now) {c : Client} {account : InternationalConnection} {all : Bool} {mark : Str} {fuel : Nat}
    {s : CSt BankSeg AccountInformation} (hconf : Configured s.st.d) (h0 : s.st.d.bankParameterData.parameters.version = 0)
    {g : Greeting} {id : Str} {b : BankParameters} (hgreet : Greets u.world s.st.step g) (hgood : g.Good id b)
    (hsup : (c!"HISALS", (7 : Int)) ∈ g.start.supported ∨ (c!"HISALS", (8 : Int)) ∈ g.start.supported)
    (htext : ∀ t ∈ [account.iban, account.bic, account.accountID, account.sub, account.bankID, mark], Latin1 t) {vs : List Visit}
    (hserve : Serves u.world (s.st.step + 2) vs) (hall : AllPages (vs.map Visit.page)) (hf : vs.length ≤ fuel)
    (hg : ∀ v ∈ vs, v.Good ∧ v.page.sepaReports ≠ [] ∧ ∀ p ∈ v.page.segments, p.item.report.isSome = p.item.sepaReport.isSome) :
    ∃ bs t, sepaAccountBalances u c account all fuel mark s = some (.ok bs, t) ∧
      List.Forall₂ (fun r b => r.1.ReportedAs r.2 b) (vs.flatMap fun v => v.page.sepaReports) bs := by
  obtain ⟨t, k1, k2, k3, k4, -⟩ := init_first hd hw hgood hgreet hconf h0
  have he : sepaAccountBalances u c account all fuel mark s = sepaAccountBalances u c account all fuel mark t := by
    cases fuel with
    | zero => rfl
    | succ n =>
      have hp : balancePage u c account all mark s = balancePage u c account all mark t := by
        unfold balancePage
        rw [k1, init_settled k3]
      unfold sepaAccountBalances
      rw [hp]
  rw [he]
  exact C102_sepa_balances hd hw hv k3 (by rw [k4]; exact hsup) htext (by rw [k2]; exact hserve) hall hf hg

/-! ## Accounts -/

/-- A call of `Accounts` of a client that has been synchronised: the accounts the client had, and
those of the answer to the initialisation. -/
theorem accounts_served (hd : u.world.decoders = decoders) (hw : u.world.views = views) {s : CSt BankSeg AccountInformation}
    (hset : Settled s.st.d) {opening closing : Answer} (ho : opening.Good) (hc : closing.Good)
    (hwel : Welcoming opening.envelope opening.segments)
    (h1 : ∀ b, (u.world.env (s.st.step + 1)).transport b = .ok (opening.bytes, true))
    (h2 : ∀ b, (u.world.env (s.st.step + 2)).transport b = .ok (closing.bytes, true)) :
    (accounts u s).1 = .ok (s.st.d.accounts ++ allSaid Item.accountInformation opening.segments) := by
  have hens : ensureClientSystemId u.world s.st = (.ok (), s.st) := by
    unfold ensureClientSystemId
    rw [if_neg hset.synchronised]
  obtain ⟨g1, a1, a2, a3, a4⟩ := exchange_answered u.world .init (initSegments s.st.d) s.st.d.version
    { s.st with d := { s.st.d with dialogId := c!"0", messageCount := 0 } } ((canSend_iff _ _).2 hset.opens)
  simp only [h1, hd] at a4
  obtain ⟨m1, b1, b2⟩ := C95_answer ho.envelope ho.segments ho.size
  have a5 : g1.reply = .ok m1 := a4.trans b1
  have hopen : open_ u.world s.st = opened u.world m1 (afterInit s.st g1) := by
    have he : open_ u.world s.st = ((exchange u.world .init (initSegments s.st.d) s.st.d.version).bind fun m => opened u.world m)
      { s.st with d := { s.st.d with dialogId := c!"0", messageCount := 0 } } := rfl
    rw [he, M.bind_of_ok (a2.trans a5), a1]
    rfl
  have hok : (opened u.world m1 (afterInit s.st g1)).1 = .ok () := by
    rw [opened_result]
    exact accepts_of_sees hw b2 hwel
  have hready : Ready (opened u.world m1 (afterInit s.st g1)).2.d := opened_ready hok (receive_readable b1) hset.ready
  have hout := opened_outer u.world m1 (afterInit s.st g1)
  have hacc := opened_accounts u.world m1 (afterInit s.st g1)
  rw [gainedByInit, (dialogIdOf_iff m1).2 (by rw [b2.received]; simp [Envelope.header])] at hacc
  simp only [(readable_of_sees hw b2).2.2.2.2] at hacc
  generalize hT : (opened u.world m1 (afterInit s.st g1)).2 = T at hout hacc hready
  simp only [outer, frame, afterInit, Prod.mk.injEq] at hout
  obtain ⟨g3, e1, e2, e3⟩ := end_answered u.world T hready
  have hstep : u.world.env (T.step + 1) = u.world.env (s.st.step + 2) := by rw [hout.2.1]
  rw [hstep, h2, hd] at e3
  obtain ⟨m2, c1, c2⟩ := C95_answer hc.envelope hc.segments hc.size
  have e4 : g3.reply = .ok m2 := e3.trans c1
  have hx : checkAcks m2 ≠ .panic := by unfold checkAcks; split <;> simp
  have hrun : syncUserParameterData u.world s.st =
      (.ok (), ⟨{ T.d with messageCount := T.d.messageCount + 1 }, T.step + 1, T.sent ++ [g3]⟩) := by
    unfold syncUserParameterData Dialog.init
    rw [M.bind_assoc]
    unfold M.bind
    rw [hens]
    simp only
    have h0 : open_ u.world s.st = (.ok (), T) := by rw [hopen, ← hT, ← hok]
    rw [h0]
    have h5 : acked g3.reply = checkAcks m2 := by rw [e4]; rfl
    simp only [M.deferred, M.lift, e1, h5]
  unfold accounts
  rw [init_settled hset]
  simp only [hrun, Outcome.map', hacc]
  rfl

/-- C103: the first caller of `Accounts` gets the accounts of the answer to the synchronisation, and
after them those of the answer to the initialisation; an account in both answers is in the result
twice. -/
theorem C103_accounts (hd : u.world.decoders = decoders) (hw : u.world.views = views) {s : CSt BankSeg AccountInformation}
    (hconf : Configured s.st.d) (h0 : s.st.d.bankParameterData.parameters.version = 0)
    {g : Greeting} {id : Str} {b : BankParameters} (hgreet : Greets u.world s.st.step g) (hgood : g.Good id b)
    {opening closing : Answer} (ho : opening.Good) (hc : closing.Good) (hwel : Welcoming opening.envelope opening.segments)
    (h1 : ∀ b, (u.world.env (s.st.step + 3)).transport b = .ok (opening.bytes, true))
    (h2 : ∀ b, (u.world.env (s.st.step + 4)).transport b = .ok (closing.bytes, true)) :
    (accounts u s).1 = .ok (s.st.d.accounts ++ allSaid Item.accountInformation g.start.segments ++
      allSaid Item.accountInformation opening.segments) := by
  obtain ⟨t, k1, k2, k3, k4, k5⟩ := init_first hd hw hgood hgreet hconf h0
  have he : accounts u s = accounts u t := by
    unfold accounts
    rw [k1, init_settled k3]
  rw [he, ← k5]
  exact accounts_served hd hw k3 ho hc hwel (by rw [k2]; exact h1) (by rw [k2]; exact h2)

/-! ## Examples -/

namespace Sample

/-- The answer to the synchronisation: client system ID, parameters, and an account; and the bank
supports statements, balances and SEPA balances. -/
def hello : Answer :=
  ⟨envelope, answer ++ [⟨.unknown c!"HIKAZS" 6 [b!"1"], 11, some 5⟩, ⟨.unknown c!"HISALS" 5 [b!"1"], 12, some 5⟩,
    ⟨.unknown c!"HISALS" 7 [b!"1"], 13, some 5⟩]⟩

theorem supports_good {id : Str} {v n : Int} (h1 : Letters id) (h2 : id.length < 2 ^ 60) (h3 : IsInt v) (h4 : decoders id v = none)
    (h5 : id ≠ c!"HIRMG") (h6 : id ≠ c!"HIRMS") (h7 : 0 ≤ n ∧ n ≤ 100) : Placed.Good ⟨.unknown id v [b!"1"], n, some 5⟩ := by
  have hf : Field b!"1" := field_of_part (part_of_sendable (s := c!"1") (sendable_of (by decide) (by decide)))
  refine ⟨⟨h1, h2, h3, by simpa using hf, by decide, h4, h5, h6⟩, small_int (n := n) h7.1 (by omega), ?_,
    by simp [Item.fields], by simp⟩
  rintro r hr
  cases hr
  exact small_int (by decide) (by decide)

theorem hello_good : hello.Good := by
  refine answer_of ?_ (by decide +kernel)
  intro p hp
  rcases List.mem_append.1 hp with hp | hp
  · exact answer_good p hp
  · simp only [List.mem_cons, List.not_mem_nil, or_false] at hp
    rcases hp with rfl | rfl | rfl <;>
      exact supports_good (by decide) (by decide) (small_int (by decide) (by decide)) (by decide +kernel) (by decide) (by decide) (by decide)

theorem hello_welcoming : Welcoming hello.envelope hello.segments := by
  have h : acknowledged hello.envelope.header.referencingMessage hello.segments =
      acknowledged envelope.header.referencingMessage answer := by decide +kernel
  have hf : firstSaid Item.procedures hello.segments = firstSaid Item.procedures answer := by decide +kernel
  have w := welcoming
  exact ⟨by rw [h]; exact w.accepted, by rw [h, hf]; exact w.function⟩

def greeting : Greeting := ⟨hello, fine⟩

theorem greeting_good : greeting.Good c!"sys+1" ⟨12, ⟨280, c!"10000000"⟩, c!"Bank: A+B", 1, 9999, 0, 0⟩ where
  start := hello_good
  closing := fine_good
  welcome := hello_welcoming
  system := by decide +kernel
  assigned := by decide
  bank := by decide +kernel
  version := by decide
  ends := (fine_last (by decide +kernel)).2

/-- A bank that greets, and goes on with these answers. -/
def greeting_then (pages : List Answer) : World BankSeg AccountInformation where
  decoders := decoders
  views := views
  controlRef _ := c!"1234"
  env n := if n = 1 then { (answering pages).env 0 with transport := fun _ => .ok (hello.bytes, true) }
    else if n = 2 then (answering pages).env 0 else (answering pages).env (n - 2)

/-- A client of that bank. -/
def newcomer (pages : List Answer) : Setup BankSeg AccountInformation (AccountBalance AccountConnection)
    (AccountBalance InternationalConnection) StatusAcknowledgement := { served pages with world := greeting_then pages }

/-- A new client. -/
def unknownClient : CSt BankSeg AccountInformation := ⟨fresh, 0⟩

theorem configured : Configured unknownClient.st.d := ⟨by decide, by unfold Latin1; decide +kernel⟩

theorem greets (pages : List Answer) : Greets (newcomer pages).world unknownClient.st.step greeting := ⟨fun _ => rfl, fun _ => rfl⟩

theorem newcomer_serves (a b : Answer) :
    Serves (newcomer [a, b]).world (unknownClient.st.step + 2) [⟨fine, a, fine⟩, ⟨fine, b, fine⟩] :=
  ⟨fun _ => rfl, fun _ => rfl, fun _ => rfl, fun _ => rfl, fun _ => rfl, fun _ => rfl, trivial⟩

/-- A bank that gives the same answer to all messages. -/
def repeating : Setup BankSeg AccountInformation (AccountBalance AccountConnection)
    (AccountBalance InternationalConnection) StatusAcknowledgement :=
  { served [] with world := { answering [] with env := fun n => { (answering []).env n with transport := fun _ => .ok (hello.bytes, true) } } }

theorem repeating_good : Greeting.Good ⟨hello, hello⟩ c!"sys+1" ⟨12, ⟨280, c!"10000000"⟩, c!"Bank: A+B", 1, 9999, 0, 0⟩ :=
  { greeting_good with
    closing := hello_good
    ends := by
      rintro ⟨a, h1, h2⟩
      have := hello_welcoming.accepted a h1
      omega }

end Sample

section
open Sample Swift

/-- A new client: the caller gets both transactions of the statement on two pages. -/
example : ∃ (parts : List (List (Transaction sampleLib.F))) (t : CSt BankSeg AccountInformation),
    transactions (newcomer [firstHalf, secondHalf]) sampleLib .fints300 (plainBuilder ⟨c!"123456", [], 280, c!"10020030"⟩ false)
      ⟨⟨2026, 1, 1, 0, 0, 0, 0⟩, ⟨2026, 1, 5, 0, 0, 0, 0⟩⟩ [] 5 unknownClient = some (.ok parts.flatten, t) ∧
    List.Forall₂ (fun s p => List.Forall₂ (Reported sampleLib 2000 s) s.entries p) [sampleStatement] parts :=
  C103_transactions (vs := [⟨fine, firstHalf, fine⟩, ⟨fine, secondHalf, fine⟩]) (now := Time.zeroTime) rfl rfl rfl
    (fun a b h => by simpa [newcomer, served] using h) (by decide) (by decide) configured (by decide) (greets _) greeting_good
    (by decide +kernel) (by unfold Latin1; decide) (newcomer_serves _ _) (by
      intro v hv
      simp only [List.mem_cons, List.not_mem_nil, or_false] at hv
      rcases hv with rfl | rfl
      · exact fine_visit firstHalf_good
      · exact fine_visit secondHalf_good) halves_all (by decide) (by simp) (by decide +kernel) (by
      intro s hs
      rw [List.mem_singleton] at hs
      subst hs
      exact ⟨sampleStatement_ok, sampleStatement_amounts, sampleStatement_lines⟩)

end

section
open Sample

/-- A new client: the caller gets the balance. -/
example : ∃ bs, (accountBalances (newcomer [⟨envelope, [⟨.overall [⟨10, [], c!"ok", []⟩], 2, none⟩, balance]⟩]) .fints300
      ⟨c!"123456", [], 280, c!"10020030"⟩ false unknownClient).1 = .ok bs ∧
    List.Forall₂ (fun r b => r.ReportedAs none b) [sampleReport] bs :=
  C103_balances (v := ⟨fine, ⟨envelope, [⟨.overall [⟨10, [], c!"ok", []⟩], 2, none⟩, balance]⟩, fine⟩) (now := Time.zeroTime)
    rfl rfl rfl configured (by decide) (greets _) greeting_good (by decide +kernel) (by unfold Latin1; decide)
    ⟨fun _ => rfl, fun _ => rfl, fun _ => rfl, trivial⟩
    (fine_visit (answer_of (by
      intro p hp
      simp only [List.mem_cons, List.not_mem_nil, or_false] at hp
      rcases hp with rfl | rfl
      · exact overall_good
      · exact balance_good) (by decide +kernel))) (fine_last (by decide +kernel)).2 (by simp [Answer.reports, balance, Item.report])

/-- A new client: the caller gets the balances of both pages. -/
example : ∃ bs t, sepaAccountBalances (newcomer [firstBalance, secondBalance]) .fints300
      ⟨c!"DE00100200300000123456", c!"ABCDDEFF", c!"123456", [], 280, c!"10020030"⟩ false 2 [] unknownClient = some (.ok bs, t) ∧
    List.Forall₂ (fun r b => r.1.ReportedAs r.2 b) [(sepaReport, none), (sepaReport, none)] bs :=
  C103_sepa_balances (vs := [⟨fine, firstBalance, fine⟩, ⟨fine, secondBalance, fine⟩]) (now := Time.zeroTime) rfl rfl rfl
    configured (by decide) (greets _) greeting_good (by decide +kernel) (by unfold Latin1; decide) (newcomer_serves _ _)
    (two_pages (more_continues (by decide +kernel)) (fine_last (by decide +kernel))) (by decide) (by
      intro v hv
      simp only [List.mem_cons, List.not_mem_nil, or_false] at hv
      rcases hv with rfl | rfl
      · refine ⟨fine_visit (answer_of (by
          intro p hp
          simp only [List.mem_cons, List.not_mem_nil, or_false] at hp
          rcases hp with rfl | rfl | rfl
          · exact overall_good
          · exact more_good
          · exact sepaBalance_good) (by decide +kernel)), by simp [firstBalance, Answer.sepaReports, more, sepaBalance, Item.sepaReport], ?_⟩
        intro p hp
        simp only [firstBalance, List.mem_cons, List.not_mem_nil, or_false] at hp
        rcases hp with rfl | rfl | rfl <;> rfl
      · refine ⟨fine_visit (answer_of (by
          intro p hp
          simp only [List.mem_cons, List.not_mem_nil, or_false] at hp
          rcases hp with rfl | rfl
          · exact overall_good
          · exact sepaBalance_good) (by decide +kernel)), by simp [secondBalance, Answer.sepaReports, sepaBalance, Item.sepaReport], ?_⟩
        intro p hp
        simp only [secondBalance, List.mem_cons, List.not_mem_nil, or_false] at hp
        rcases hp with rfl | rfl <;> rfl)

/-- The bank tells the account in all answers.  The caller gets it twice. -/
example : ∃ a, (accounts repeating unknownClient).1 = .ok [a, a] := by
  have h : allSaid Item.accountInformation hello.segments = [(allSaid Item.accountInformation hello.segments).head (by decide +kernel)] := by
    decide +kernel
  have := C103_accounts (u := repeating) (s := unknownClient) (g := ⟨hello, hello⟩) (opening := hello) (closing := hello) rfl rfl configured
    (by decide) ⟨fun _ => rfl, fun _ => rfl⟩ repeating_good hello_good hello_good hello_welcoming (fun _ => rfl) (fun _ => rfl)
  rw [h] at this
  exact ⟨_, this⟩

/-- A client made by `New`. -/
example : ∃ url v s, Client.new (σ := BankSeg) (α := AccountInformation) (greeting_then []) []
      ⟨c!"10000000", c!"user", c!"secret", c!"https://bank", 300, [], []⟩ = .ok (url, v, s) ∧
    Configured s.d ∧ s.d.bankParameterData.parameters.version = 0 := by
  obtain ⟨h1, h2, -⟩ := C103_new (w := greeting_then []) (data := []) (config := ⟨c!"10000000", c!"user", c!"secret", c!"https://bank", 300, [], []⟩)
    rfl (by decide) (by unfold Latin1; decide) (fun k => by
      have : Latin1 c!"1234" := latin1_of_all (by decide)
      exact this)
  exact ⟨_, _, _, rfl, h1, h2⟩

end

end Verif.Bank

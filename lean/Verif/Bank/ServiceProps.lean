import Verif.Bank.ServiceSample
import Verif.Segment.RequestProps

/-
C102: a caller gets the balances and transactions that the bank reports.
-/

namespace Verif.Bank

open GoLib Element Element.Spec Segment Segment.Spec Message Message.Spec Dialog Domain Transport Client
open Swift.Spec (Statement)

/-! ## Specification -/

/-- From step `n` on the messages of one dialog after the other are answered in this way. -/
def Serves (w : World BankSeg AccountInformation) : Nat → List Visit → Prop
  | _, [] => True
  | n, v :: vs => (∀ b, (w.env (n + 1)).transport b = .ok (v.opening.bytes, true)) ∧
      (∀ b, (w.env (n + 2)).transport b = .ok (v.page.bytes, true)) ∧
      (∀ b, (w.env (n + 3)).transport b = .ok (v.closing.bytes, true)) ∧ Serves w (n + 3) vs

variable {u : Setup BankSeg AccountInformation (AccountBalance AccountConnection) (AccountBalance InternationalConnection)
  StatusAcknowledgement}

/-! ## Requests -/

theorem job_writable {c : Client} {q : Seg} (h : Writable q) : ∀ x, some x ∈ (jobOf c q).segments → Writable x := by
  intro x hx
  simp only [jobOf, List.mem_cons, Option.some.injEq, List.not_mem_nil, or_false] at hx
  rcases hx with rfl | rfl
  · exact tan_writable
  · exact h

theorem account_texts {a : AccountConnection} (h : ∀ t ∈ [a.accountID, a.sub, a.bankID], Latin1 t) :
    ∀ t ∈ Dialog.texts (accountConnectionDE a), Latin1 t := by
  simpa [accountConnectionDE, Dialog.texts, textsAll] using h

theorem international_texts {a : InternationalConnection} (h : ∀ t ∈ [a.iban, a.bic, a.accountID, a.sub, a.bankID], Latin1 t) :
    ∀ t ∈ Dialog.texts (internationalDE a), Latin1 t := by
  simpa [internationalDE, bankIdentification, Dialog.texts, textsAll] using h

theorem balance_writable {r : BalanceRequest} (h : ∀ t ∈ Dialog.texts r.account, Latin1 t) (hm : ∀ m, r.mark = some m → Latin1 m) :
    Writable r.seg := by
  refine ⟨show Latin1 c!"HKSAL" from latin1_of_all (by decide), ?_⟩
  intro t ht
  unfold BalanceRequest.seg newSegment at ht
  cases hk : r.mark with
  | none =>
    simp only [hk, textsAll, Dialog.texts, Option.map_none, List.append_nil] at ht
    exact h t ht
  | some m =>
    simp only [hk, textsAll, Dialog.texts, Option.map_some, List.append_nil, List.nil_append, List.mem_append, List.mem_singleton] at ht
    rcases ht with ht | rfl
    · exact h t ht
    · exact hm _ hk

theorem transaction_writable {r : TransactionRequest} (h : ∀ t ∈ Dialog.texts r.account, Latin1 t) (hm : ∀ m, r.mark = some m → Latin1 m) :
    Writable r.seg := by
  refine ⟨show Latin1 c!"HKKAZ" from latin1_of_all (by decide), ?_⟩
  intro t ht
  unfold TransactionRequest.seg newSegment at ht
  have : t ∈ Dialog.texts r.account ∨ ∃ m, r.mark = some m ∧ t = m := by
    cases hk : r.mark <;> cases ha : r.start <;> cases hb : r.stop <;>
      simp only [hk, ha, hb, textsAll, Dialog.texts, Option.map_none, Option.map_some, List.append_nil, List.nil_append, List.mem_append,
        List.mem_singleton] at ht
    all_goals first
      | exact .inl ht
      | (rcases ht with ht | rfl
         · exact .inl ht
         · exact .inr ⟨_, rfl, rfl⟩)
  rcases this with ht | ⟨m, h1, rfl⟩
  · exact h t ht
  · exact hm _ h1

theorem init_settled {s : CSt BankSeg AccountInformation} (hs : Settled s.st.d) : Client.init u s = (.ok (), s) := by
  unfold Client.init
  rw [if_neg hs.parameters]

theorem balance_request {ss : List (Str × Int)} {account : AccountConnection} {all : Bool}
    (h : (c!"HISALS", (5 : Int)) ∈ ss ∨ (c!"HISALS", (6 : Int)) ∈ ss) :
    ∃ q, (newBuilder ss).balance account all = .ok q ∧ q.account = accountConnectionDE account ∧ q.mark = none := by
  obtain ⟨h1, h2⟩ := C32_balance ss account all
  cases hq : (newBuilder ss).balance account all with
  | ok q =>
    obtain ⟨v, _, rfl⟩ := (h1 q).1 hq
    exact ⟨_, rfl, rfl, rfl⟩
  | err =>
    obtain ⟨k1, k2⟩ := h2.1 hq
    rcases h with h | h <;> contradiction
  | panic =>
    unfold Builder.balance Builder.choose balanceBuilder firstImplemented at hq
    split at hq
    · simp at hq
    · rename_i vs _
      cases hf : (descending vs).findSome? balanceTable <;> rw [hf] at hq <;> simp [Outcome.ofOption] at hq

theorem sepa_request {ss : List (Str × Int)} {account : InternationalConnection} {all : Bool}
    (h : (c!"HISALS", (7 : Int)) ∈ ss ∨ (c!"HISALS", (8 : Int)) ∈ ss) :
    ∃ q, (newBuilder ss).sepaBalance account all = .ok q ∧ q.account = internationalDE account ∧ q.mark = none := by
  obtain ⟨h1, h2⟩ := C32_sepaBalance ss account all
  cases hq : (newBuilder ss).sepaBalance account all with
  | ok q =>
    obtain ⟨v, _, rfl⟩ := (h1 q).1 hq
    exact ⟨_, rfl, rfl, rfl⟩
  | err =>
    obtain ⟨k1, k2⟩ := h2.1 hq
    rcases h with h | h <;> contradiction
  | panic =>
    unfold Builder.sepaBalance Builder.choose sepaBalanceBuilder firstImplemented at hq
    split at hq
    · simp at hq
    · rename_i vs _
      cases hf : (descending vs).findSome? sepaBalanceTable <;> rw [hf] at hq <;> simp [Outcome.ofOption] at hq

theorem transaction_request {ss : List (Str × Int)} {account : AccountConnection} {all : Bool}
    (h : (c!"HIKAZS", (5 : Int)) ∈ ss ∨ (c!"HIKAZS", (6 : Int)) ∈ ss) :
    ∃ q, (newBuilder ss).transactions account all = .ok q ∧ q.account = accountConnectionDE account ∧ q.mark = none := by
  obtain ⟨h1, h2⟩ := C32_transactions ss account all
  cases hq : (newBuilder ss).transactions account all with
  | ok q =>
    obtain ⟨v, _, rfl⟩ := (h1 q).1 hq
    exact ⟨_, rfl, rfl, rfl⟩
  | err =>
    obtain ⟨k1, k2⟩ := h2.1 hq
    rcases h with h | h <;> contradiction
  | panic =>
    unfold Builder.transactions Builder.choose transactionBuilder firstImplemented at hq
    split at hq
    · simp at hq
    · rename_i vs _
      cases hf : (descending vs).findSome? transactionTable <;> rw [hf] at hq <;> simp [Outcome.ofOption] at hq

/-- The reference the client reads from an answer. -/
theorem continuation_read {a : Answer} {m : Decrypted BankSeg} (h : m.acknowledgements = a.acks) :
    (a.Last → continuation m = .ok []) ∧ (a.Continues → ∃ r, r ≠ [] ∧ continuation m = .ok r) := by
  unfold Answer.Last Answer.Continues Answer.reference continuation
  rw [h]
  cases a.acks.find? fun x => x.code == 3040 with
  | none => simp
  | some x =>
    simp only [Option.map_some, Option.some.injEq, reduceCtorEq, false_or]
    constructor
    · rintro ⟨more, hx⟩
      rw [hx]
    · rintro ⟨r, more, h1, hx⟩
      rw [hx]
      exact ⟨r, h1, rfl⟩

theorem continuation_latin1 {m : Decrypted BankSeg} (h : Readable m) {r : Str} (hr : continuation m = .ok r) : Latin1 r := by
  rcases continuation_cases m with ⟨_, hc⟩ | ⟨_, hc⟩ | ⟨p, ps, ⟨b, x, c, h1, _, _, h4⟩, hc⟩
  · rw [hc] at hr; cases hr; exact latin1_nil
  · rw [hc] at hr; cases hr
  · rw [hc] at hr
    cases hr
    exact h.params x (by rw [h1]; simp) _ (by rw [h4]; simp)

theorem reply_readable {g : Sent BankSeg} {a : Answer} {m : Decrypted BankSeg} (h : Answered g a) (hm : g.reply = .ok m) : Readable m :=
  receive_readable (h.symm.trans hm)

theorem three_jobs {g1 g2 g3 : Sent BankSeg} (h1 : g1.kind = .init) (h2 : g2.kind = .job) (h3 : g3.kind = .end_) :
    ([g1, g2, g3].filter fun e => e.kind = .job) = [g2] := by
  simp [h1, h2, h3]

theorem not_crashed {l : List (Sent BankSeg)} {g1 g2 g3 : Sent BankSeg} (h : g3.reply ≠ .panic) :
    ¬ EndCrashed (l ++ [g1, g2, g3]) := by
  rintro ⟨f, h1, _, h3⟩
  have : (l ++ [g1, g2, g3]).getLast? = some g3 := by simp [List.getLast?_append]
  rw [this] at h1
  cases h1
  exact h h3

theorem AllPages.cons {a : Answer} {as : List Answer} (h : AllPages (a :: as)) :
    ¬ a.Refuses ∧ (as = [] ∧ a.Last ∨ a.Continues ∧ AllPages as) := by
  obtain ⟨before, last, h1, h2, h3, h4⟩ := h
  refine ⟨h4 a (by simp), ?_⟩
  cases before with
  | nil =>
    simp only [List.nil_append, List.cons.injEq] at h1
    obtain ⟨rfl, rfl⟩ := h1
    exact .inl ⟨rfl, h3⟩
  | cons x before =>
    simp only [List.cons_append, List.cons.injEq] at h1
    obtain ⟨rfl, rfl⟩ := h1
    exact .inr ⟨h2 a (by simp), before, last, rfl, fun y hy => h2 y (by simp [hy]), h3, fun y hy => h4 y (List.mem_cons_of_mem _ hy)⟩

theorem AllPages.ne_nil {as : List Answer} (h : AllPages as) : as ≠ [] := by
  obtain ⟨before, last, rfl, _⟩ := h
  simp

theorem crashed_append {l k : List (Sent BankSeg)} (hk : k ≠ []) (h : EndCrashed (l ++ k)) : EndCrashed k := by
  obtain ⟨f, h1, h2⟩ := h
  refine ⟨f, ?_, h2⟩
  rwa [List.getLast?_append_of_ne_nil _ hk] at h1

theorem answered_ne_nil {l : List (Sent BankSeg)} {as : List Answer} (h : List.Forall₂ Answered (l.filter fun e => e.kind = .job) as)
    (ha : as ≠ []) : l ≠ [] := by
  rintro rfl
  cases h
  exact ha rfl

/-! ## Transactions -/

/-- All pages are fetched. -/
theorem fetch_served (hd : u.world.decoders = decoders) (hw : u.world.views = views) {now : Time.Civil} (hv : u.views = clientViews now)
    {c : Client} {account : AccountConnection} {all : Bool} {tf : Domain.Timeframe}
    (hacc : ∀ t ∈ [account.accountID, account.sub, account.bankID], Latin1 t) :
    ∀ (vs : List Visit) (fuel : Nat) (mark : Str) (s : CSt BankSeg AccountInformation), AllPages (vs.map Visit.page) →
      (∀ v ∈ vs, v.Good) → Serves u.world s.st.step vs → Settled s.st.d →
      ((c!"HIKAZS", (5 : Int)) ∈ s.st.d.supportedSegments ∨ (c!"HIKAZS", (6 : Int)) ∈ s.st.d.supportedSegments) → Latin1 mark →
      vs.length ≤ fuel → ∃ r t log, accountTransactions u c (plainBuilder account all) tf fuel mark s = some (r, t) ∧
        t.st.sent = s.st.sent ++ log ∧ List.Forall₂ Answered (log.filter fun e => e.kind = .job) (vs.map Visit.page) ∧
        ¬ EndCrashed log
  | [], _, _, _, h, _, _, _, _, _, _ => absurd rfl h.ne_nil
  | _ :: _, 0, _, _, _, _, _, _, _, _, hf => absurd hf (by simp)
  | v :: vs, fuel + 1, mark, s, hall, hg, hserve, hset, hsup, hmark, hf => by
    obtain ⟨hr, hnext⟩ := AllPages.cons hall
    obtain ⟨e1, e2, e3, erest⟩ := hserve
    obtain ⟨q, hq, qa, qm⟩ := transaction_request (account := account) (all := all) hsup
    have hwr : Writable (if mark = [] then q.setTransactionRange (u.today s.ticks) tf
        else (q.setTransactionRange (u.today s.ticks) tf).setContinuationReference mark).seg := by
      refine transaction_writable ?_ ?_
      · have : (if mark = [] then q.setTransactionRange (u.today s.ticks) tf
          else (q.setTransactionRange (u.today s.ticks) tf).setContinuationReference mark).account = q.account := by
          split <;> rfl
        rw [this, qa]
        exact account_texts hacc
      · intro m hm
        split at hm
        · have : (q.setTransactionRange (u.today s.ticks) tf).mark = q.mark := rfl
          rw [this, qm] at hm
          cases hm
        · cases hm
          exact hmark
    obtain ⟨m, g1, g2, g3, k1, k2, hread, k3, k4, k5, k6, k7, k8, k9, k10, k11⟩ := send_served hd hw
      (job_writable (c := c) hwr) (hg v (by simp)) hr e1 e2 e3 hset
    have hreq : transactionRequest u (plainBuilder account all) tf mark s = .ok (if mark = [] then
        q.setTransactionRange (u.today s.ticks) tf
        else (q.setTransactionRange (u.today s.ticks) tf).setContinuationReference mark).seg := by
      unfold transactionRequest plainBuilder
      rw [hq]
      rfl
    have hcol : collect (viewChecked u.views.statement) (m.segments c!"HIKAZ") =
        .ok (v.page.segments.filterMap (·.item.booked)) := by
      rw [collect_ok, hv]
      exact forall₂_map_ok.2 (k2.statements now)
    obtain ⟨cl, cc⟩ := continuation_read (a := v.page) k2.acknowledgements
    have hpage : ∀ {next : Str}, continuation m = .ok next → ∃ tx n,
        page u c (plainBuilder account all) tf mark s = (.ok (tx, next), ⟨(sendMessage u.world (jobOf c (if mark = [] then
          q.setTransactionRange (u.today s.ticks) tf
          else (q.setTransactionRange (u.today s.ticks) tf).setContinuationReference mark).seg) s.st).2, n⟩) := by
      intro next hn
      unfold page
      rw [hreq]
      simp only [send]
      rw [k1]
      simp only [readPage, hcol, hn]
      exact ⟨_, _, rfl⟩
    rw [accountTransactions]
    rcases hnext with ⟨hnil, hlast⟩ | ⟨hcont, hrest⟩
    · obtain ⟨tx, n, hp⟩ := hpage (cl hlast)
      rw [hp]
      refine ⟨_, _, [g1, g2, g3], if_pos rfl, k3, ?_, not_crashed (l := []) k8⟩
      rw [three_jobs k4 k5 k7, List.map_cons, hnil]
      exact .cons k6 .nil
    · obtain ⟨next, hne, hn⟩ := cc hcont
      obtain ⟨tx, n, hp⟩ := hpage hn
      rw [hp]
      simp only [hne, if_false]
      obtain ⟨r, t, log, f1, f2, f3, f4⟩ := fetch_served hd hw hv hacc vs fuel next
        ⟨(sendMessage u.world (jobOf c (if mark = [] then q.setTransactionRange (u.today s.ticks) tf
          else (q.setTransactionRange (u.today s.ticks) tf).setContinuationReference mark).seg) s.st).2, n⟩
        hrest (fun v hv => hg v (by simp [hv])) (by simp only [k9]; exact erest) k10 (by simp only [k11]; exact hsup)
        (continuation_latin1 hread hn) (by simpa using hf)
      have f5 : t.st.sent = s.st.sent ++ ([g1, g2, g3] ++ log) := by
        rw [f2]
        simp only [k3, List.append_assoc]
      have f6 : List.Forall₂ Answered (([g1, g2, g3] ++ log).filter fun e => e.kind = .job) ((v :: vs).map Visit.page) := by
        rw [List.filter_append, three_jobs k4 k5 k7]
        exact .cons k6 f3
      have f7 : ¬ EndCrashed ([g1, g2, g3] ++ log) := fun h => f4 (crashed_append (answered_ne_nil f3 hrest.ne_nil) h)
      rw [f1]
      cases r with
      | ok msg => exact ⟨_, _, _, rfl, f5, f6, f7⟩
      | err => exact ⟨_, _, _, rfl, f5, f6, f7⟩
      | panic => exact ⟨_, _, _, rfl, f5, f6, f7⟩

/-- C102: a caller of `AccountTransactions` gets the transactions.  The client knows the bank,
which supports the request; the bank answers the messages in their order, and accepts; the request
and its continuations are answered with all pages of the statements. -/
theorem C102_transactions (hd : u.world.decoders = decoders) (hw : u.world.views = views) {now : Time.Civil}
    (hv : u.views = clientViews now) (hclock : StrictMono u.clock) {L : Swift.Lib} (h1 : 1000 ≤ L.year) (h2 : L.year ≤ 9999)
    {c : Client} {account : AccountConnection} {all : Bool} {tf : Domain.Timeframe} {mark : Str} {fuel : Nat}
    {s : CSt BankSeg AccountInformation} {vs : List Visit}
    (hset : Settled s.st.d)
    (hsup : (c!"HIKAZS", (5 : Int)) ∈ s.st.d.supportedSegments ∨ (c!"HIKAZS", (6 : Int)) ∈ s.st.d.supportedSegments)
    (htext : ∀ t ∈ [account.accountID, account.sub, account.bankID, mark], Latin1 t)
    (hserve : Serves u.world s.st.step vs) (hg : ∀ v ∈ vs, v.Good) (hall : AllPages (vs.map Visit.page)) (hf : vs.length ≤ fuel)
    {ss : List Statement} (hne : ss ≠ [])
    (hss : (vs.map fun v => v.page.booked).flatten = (ss.map Statement.text).flatten)
    (hok : ∀ s ∈ ss, s.Ok (L.year / 100 * 100) ∧ Swift.Amounts L s ∧ ∀ e ∈ s.entries, ¬ Swift.Spec.Crash e.rest) :
    ∃ (parts : List (List (Swift.Transaction L.F))) (t : CSt BankSeg AccountInformation),
      transactions u L c (plainBuilder account all) tf mark fuel s = some (.ok parts.flatten, t) ∧
      List.Forall₂ (fun s p => List.Forall₂ (Swift.Reported L (L.year / 100 * 100) s) s.entries p) ss parts := by
  simp only [List.mem_cons, List.not_mem_nil, or_false, forall_eq_or_imp, forall_eq] at htext
  obtain ⟨t1, t2, t3, t4⟩ := htext
  obtain ⟨r, t, log, f1, f2, f3, f4⟩ := fetch_served hd hw hv (c := c) (account := account) (all := all) (tf := tf)
    (by simp only [List.mem_cons, List.not_mem_nil, or_false, forall_eq_or_imp, forall_eq]; exact ⟨t1, t2, t3⟩)
    vs fuel mark s hall hg hserve hset hsup t4 hf
  have hrun : transactions u L c (plainBuilder account all) tf mark fuel s =
      some (r.bind fun tx => Swift.unmarshalMT940 L tx.data, t) := by
    unfold transactions
    rw [init_settled hset]
    simp only [f1, Option.map_some]
  rcases C101_transactions hv hclock h1 h2 hrun f2 f3 (by
      intro a ha
      obtain ⟨v, hv, rfl⟩ := List.mem_map.1 ha
      exact (hg v hv).page) hne (by rw [List.map_map]; exact hss) hok with ⟨_, parts, p1, p2⟩ | ⟨_, h | h⟩
  · exact ⟨parts, t, by rw [hrun, p1], p2⟩
  · exact absurd hall h
  · exact absurd h f4

/-! ## Balances -/

/-- C102: a caller of `AccountBalances` gets the balances. -/
theorem C102_balances (hd : u.world.decoders = decoders) (hw : u.world.views = views) {now : Time.Civil}
    (hv : u.views = clientViews now) {c : Client} {account : AccountConnection} {all : Bool}
    {s : CSt BankSeg AccountInformation} {v : Visit} (hset : Settled s.st.d)
    (hsup : (c!"HISALS", (5 : Int)) ∈ s.st.d.supportedSegments ∨ (c!"HISALS", (6 : Int)) ∈ s.st.d.supportedSegments)
    (htext : ∀ t ∈ [account.accountID, account.sub, account.bankID], Latin1 t)
    (hserve : Serves u.world s.st.step [v]) (hg : v.Good) (hr : ¬ v.page.Refuses) (hne : v.page.reports ≠ []) :
    ∃ bs, (accountBalances u c account all s).1 = .ok bs ∧ List.Forall₂ (fun r b => r.ReportedAs none b) v.page.reports bs := by
  obtain ⟨e1, e2, e3, -⟩ := hserve
  obtain ⟨q, hq, qa, qm⟩ := balance_request (account := account) (all := all) hsup
  obtain ⟨m, g1, g2, g3, k1, k2, hread, k3, k4, k5, k6, k7, k8, k9, k10, k11⟩ := send_served hd hw
    (job_writable (c := c) (balance_writable (r := q) (by rw [qa]; exact account_texts htext) (by rw [qm]; simp))) hg hr e1 e2 e3 hset
  have hlog : (accountBalances u c account all s).2.st.sent = s.st.sent ++ [g1, g2, g3] := by
    unfold accountBalances
    rw [init_settled hset]
    simp only [hq, send, k3]
  rcases C101_balances hv hlog (as := [v.page]) (by rw [three_jobs k4 k5 k7]; exact .cons k6 .nil) (by
    intro a ha
    rw [List.mem_singleton] at ha
    subst ha
    exact hg.page) with ⟨a, bs, h1, _, _, h2, h3⟩ | ⟨_, h | h | ⟨a, h1, h⟩⟩
  · cases h1
    exact ⟨bs, h2, h3⟩
  · cases h
  · exact absurd h (not_crashed (l := []) k8)
  · cases h1
    rcases h with h | h
    · exact absurd h hr
    · exact absurd h hne

/-- All pages of balances are fetched. -/
theorem balances_served (hd : u.world.decoders = decoders) (hw : u.world.views = views) {now : Time.Civil}
    (hv : u.views = clientViews now) {c : Client} {account : InternationalConnection} {all : Bool}
    (hacc : ∀ t ∈ [account.iban, account.bic, account.accountID, account.sub, account.bankID], Latin1 t) :
    ∀ (vs : List Visit) (fuel : Nat) (mark : Str) (s : CSt BankSeg AccountInformation), AllPages (vs.map Visit.page) →
      (∀ v ∈ vs, v.Good ∧ v.page.sepaReports ≠ [] ∧ ∀ p ∈ v.page.segments, p.item.report.isSome = p.item.sepaReport.isSome) →
      Serves u.world s.st.step vs → Settled s.st.d →
      ((c!"HISALS", (7 : Int)) ∈ s.st.d.supportedSegments ∨ (c!"HISALS", (8 : Int)) ∈ s.st.d.supportedSegments) → Latin1 mark →
      vs.length ≤ fuel → ∃ r t log, sepaAccountBalances u c account all fuel mark s = some (r, t) ∧
        t.st.sent = s.st.sent ++ log ∧ List.Forall₂ Answered (log.filter fun e => e.kind = .job) (vs.map Visit.page) ∧
        ¬ EndCrashed log
  | [], _, _, _, h, _, _, _, _, _, _ => absurd rfl h.ne_nil
  | _ :: _, 0, _, _, _, _, _, _, _, _, hf => absurd hf (by simp)
  | v :: vs, fuel + 1, mark, s, hall, hg, hserve, hset, hsup, hmark, hf => by
    obtain ⟨hr, hnext⟩ := AllPages.cons hall
    obtain ⟨e1, e2, e3, erest⟩ := hserve
    obtain ⟨hgood, hsome, hiff⟩ := hg v (by simp)
    obtain ⟨q, hq, qa, qm⟩ := sepa_request (account := account) (all := all) hsup
    have hwr : Writable (if mark = [] then q else q.setContinuationMark mark).seg := by
      refine balance_writable ?_ ?_
      · have : (if mark = [] then q else q.setContinuationMark mark).account = q.account := by split <;> rfl
        rw [this, qa]
        exact international_texts hacc
      · intro m hm
        split at hm
        · rw [qm] at hm
          cases hm
        · cases hm
          exact hmark
    obtain ⟨m, g1, g2, g3, k1, k2, hread, k3, k4, k5, k6, k7, k8, k9, k10, k11⟩ := send_served hd hw
      (job_writable (c := c) hwr) hgood hr e1 e2 e3 hset
    obtain ⟨xs, x1, x2⟩ := views_reported checked_other (k2.sepaBalances hiff now)
    have hxs : xs ≠ [] := by
      rintro rfl
      unfold Answer.sepaReports at hsome
      generalize (v.page.segments.filterMap (·.item.sepaReport)) = l at x2 hsome
      cases x2
      exact hsome rfl
    have hcol : readBalances u.views.sepaBalance m = .ok xs := by
      rw [readBalances_iff, hv]
      exact ⟨x1, hxs⟩
    obtain ⟨cl, cc⟩ := continuation_read (a := v.page) k2.acknowledgements
    have hpage : ∀ {next : Str}, continuation m = .ok next →
        balancePage u c account all mark s = (.ok (xs, next), { s with
          st := (sendMessage u.world (jobOf c (if mark = [] then q else q.setContinuationMark mark).seg) s.st).2 }) := by
      intro next hn
      unfold balancePage
      rw [init_settled hset]
      simp only [hq, send]
      rw [k1]
      simp only [Outcome.bind, Outcome.map', hcol, hn]
    rw [sepaAccountBalances]
    rcases hnext with ⟨hnil, hlast⟩ | ⟨hcont, hrest⟩
    · rw [hpage (cl hlast)]
      refine ⟨_, _, [g1, g2, g3], if_pos rfl, k3, ?_, not_crashed (l := []) k8⟩
      rw [three_jobs k4 k5 k7, List.map_cons, hnil]
      exact .cons k6 .nil
    · obtain ⟨next, hne, hn⟩ := cc hcont
      rw [hpage hn]
      simp only [hne, if_false]
      obtain ⟨r, t, log, f1, f2, f3, f4⟩ := balances_served hd hw hv hacc vs fuel next
        { s with st := (sendMessage u.world (jobOf c (if mark = [] then q else q.setContinuationMark mark).seg) s.st).2 }
        hrest (fun v hv => hg v (by simp [hv])) (by simp only [k9]; exact erest) k10 (by simp only [k11]; exact hsup)
        (continuation_latin1 hread hn) (by simpa using hf)
      rw [f1]
      refine ⟨_, _, [g1, g2, g3] ++ log, rfl, ?_, ?_, fun h => f4 (crashed_append (answered_ne_nil f3 hrest.ne_nil) h)⟩
      · rw [f2]
        simp only [k3, List.append_assoc]
      · rw [List.filter_append, three_jobs k4 k5 k7]
        exact .cons k6 f3

/-- C102: a caller of `SepaAccountBalances` gets the balances of all pages. -/
theorem C102_sepa_balances (hd : u.world.decoders = decoders) (hw : u.world.views = views) {now : Time.Civil}
    (hv : u.views = clientViews now) {c : Client} {account : InternationalConnection} {all : Bool} {mark : Str} {fuel : Nat}
    {s : CSt BankSeg AccountInformation} {vs : List Visit} (hset : Settled s.st.d)
    (hsup : (c!"HISALS", (7 : Int)) ∈ s.st.d.supportedSegments ∨ (c!"HISALS", (8 : Int)) ∈ s.st.d.supportedSegments)
    (htext : ∀ t ∈ [account.iban, account.bic, account.accountID, account.sub, account.bankID, mark], Latin1 t)
    (hserve : Serves u.world s.st.step vs) (hall : AllPages (vs.map Visit.page)) (hf : vs.length ≤ fuel)
    (hg : ∀ v ∈ vs, v.Good ∧ v.page.sepaReports ≠ [] ∧ ∀ p ∈ v.page.segments, p.item.report.isSome = p.item.sepaReport.isSome) :
    ∃ bs t, sepaAccountBalances u c account all fuel mark s = some (.ok bs, t) ∧
      List.Forall₂ (fun r b => r.1.ReportedAs r.2 b) (vs.flatMap fun v => v.page.sepaReports) bs := by
  simp only [List.mem_cons, List.not_mem_nil, or_false, forall_eq_or_imp, forall_eq] at htext
  obtain ⟨t1, t2, t3, t4, t5, t6⟩ := htext
  obtain ⟨r, t, log, f1, f2, f3, f4⟩ := balances_served hd hw hv (c := c) (account := account) (all := all)
    (by simp only [List.mem_cons, List.not_mem_nil, or_false, forall_eq_or_imp, forall_eq]; exact ⟨t1, t2, t3, t4, t5⟩)
    vs fuel mark s hall hg hserve hset hsup t6 hf
  rcases C101_sepa_balances hv f1 f2 f3 (by
      intro a ha
      obtain ⟨v, hv, rfl⟩ := List.mem_map.1 ha
      exact (hg v hv).1.page) (by
      intro a ha
      obtain ⟨v, hv, rfl⟩ := List.mem_map.1 ha
      exact (hg v hv).2.2) with ⟨_, _, bs, p1, p2⟩ | ⟨_, h | h | ⟨a, ha, h⟩⟩
  · rw [List.flatMap_map] at p2
    exact ⟨bs, t, by rw [f1, p1], p2⟩
  · exact absurd hall h
  · exact absurd h f4
  · obtain ⟨v, hv, rfl⟩ := List.mem_map.1 ha
    exact absurd h (hg v hv).2.1

/-! ## Examples -/

open Sample in
theorem answering_serves (a b : Answer) : Serves (answering [a, b]) 0 [⟨fine, a, fine⟩, ⟨fine, b, fine⟩] :=
  ⟨fun _ => rfl, fun _ => rfl, fun _ => rfl, fun _ => rfl, fun _ => rfl, fun _ => rfl, trivial⟩

open Sample in
theorem more_continues {a : Answer} (h : a.acks = [⟨.message, 10, [], c!"ok", [], ⟨c!"dia0", 1⟩, 0⟩,
    ⟨.segment, 3040, [], c!"more", [c!"next"], ⟨[], 0⟩, 4⟩]) : a.Continues ∧ ¬ a.Refuses := by
  unfold Answer.Continues Answer.reference Answer.Refuses
  rw [h]
  exact ⟨⟨c!"next", [], by simp, rfl⟩, by simp⟩

open Sample in
theorem fine_last {a : Answer} (h : a.acks = [⟨.message, 10, [], c!"ok", [], ⟨c!"dia0", 1⟩, 0⟩]) : a.Last ∧ ¬ a.Refuses := by
  unfold Answer.Last Answer.reference Answer.Refuses
  rw [h]
  exact ⟨.inl rfl, by simp⟩

theorem two_pages {a b : Answer} (ha : a.Continues ∧ ¬ a.Refuses) (hb : b.Last ∧ ¬ b.Refuses) : AllPages [a, b] := by
  refine ⟨[a], b, rfl, by simpa using ha.1, hb.1, ?_⟩
  intro x hx
  simp only [List.mem_cons, List.not_mem_nil, or_false] at hx
  rcases hx with rfl | rfl
  · exact ha.2
  · exact hb.2

section
open Sample Swift

/-- A statement, cut in the middle of a line into two pages. -/
def firstHalf : Answer := statementPage (sampleStatement.text.take 100) true
def secondHalf : Answer := statementPage (sampleStatement.text.drop 100) false

theorem firstHalf_good : firstHalf.Good := answer_of (by
  intro p hp
  simp only [if_true, List.cons_append, List.nil_append, List.mem_cons, List.not_mem_nil, or_false] at hp
  rcases hp with rfl | rfl | rfl
  · exact overall_good
  · exact more_good
  · exact statement_good (by decide +kernel)) (by decide +kernel)

theorem secondHalf_good : secondHalf.Good := answer_of (by
  intro p hp
  simp only [Bool.false_eq_true, if_false, List.cons_append, List.nil_append, List.mem_cons, List.not_mem_nil, or_false] at hp
  rcases hp with rfl | rfl
  · exact overall_good
  · exact statement_good (by decide +kernel)) (by decide +kernel)

theorem halves_all : AllPages [firstHalf, secondHalf] :=
  two_pages (more_continues (by decide +kernel)) (fine_last (by decide +kernel))

/-- The bank sends the statement on two pages.  The caller gets both of its transactions. -/
example : ∃ (parts : List (List (Transaction sampleLib.F))) (t : CSt BankSeg AccountInformation),
    transactions (served [firstHalf, secondHalf]) sampleLib .fints300 (plainBuilder ⟨c!"123456", [], 280, c!"10020030"⟩ false)
      ⟨⟨2026, 1, 1, 0, 0, 0, 0⟩, ⟨2026, 1, 5, 0, 0, 0, 0⟩⟩ [] 5 synchronised = some (.ok parts.flatten, t) ∧
    List.Forall₂ (fun s p => List.Forall₂ (Reported sampleLib 2000 s) s.entries p) [sampleStatement] parts :=
  C102_transactions (vs := [⟨fine, firstHalf, fine⟩, ⟨fine, secondHalf, fine⟩]) (now := Time.zeroTime) rfl rfl rfl
    (fun a b h => by simpa [served] using h) (by decide) (by decide) synchronised_settled (by decide)
    (by unfold Latin1; decide) (answering_serves _ _) (by
      intro v hv
      simp only [List.mem_cons, List.not_mem_nil, or_false] at hv
      rcases hv with rfl | rfl
      · exact fine_visit firstHalf_good
      · exact fine_visit secondHalf_good) halves_all (by decide) (by simp) (by decide +kernel) (by
      intro s hs
      rw [List.mem_singleton] at hs
      subst hs
      exact ⟨sampleStatement_ok, sampleStatement_amounts, sampleStatement_lines⟩)

end

section
open Sample

/-- The bank sends a balance, and nothing else. -/
example : ∃ bs, (accountBalances (served [⟨envelope, [⟨.overall [⟨10, [], c!"ok", []⟩], 2, none⟩, balance]⟩]) .fints300
      ⟨c!"123456", [], 280, c!"10020030"⟩ false synchronised).1 = .ok bs ∧
    List.Forall₂ (fun r b => r.ReportedAs none b) [sampleReport] bs :=
  C102_balances (v := ⟨fine, ⟨envelope, [⟨.overall [⟨10, [], c!"ok", []⟩], 2, none⟩, balance]⟩, fine⟩) (now := Time.zeroTime)
    rfl rfl rfl synchronised_settled (by decide) (by unfold Latin1; decide) ⟨fun _ => rfl, fun _ => rfl, fun _ => rfl, trivial⟩
    (fine_visit (answer_of (by
      intro p hp
      simp only [List.mem_cons, List.not_mem_nil, or_false] at hp
      rcases hp with rfl | rfl
      · exact overall_good
      · exact balance_good) (by decide +kernel))) (fine_last (by decide +kernel)).2 (by simp [Answer.reports, balance, Item.report])

/-- Two pages with a balance each. -/
def firstBalance : Answer := ⟨envelope, [⟨.overall [⟨10, [], c!"ok", []⟩], 2, none⟩, more, sepaBalance]⟩
def secondBalance : Answer := ⟨envelope, [⟨.overall [⟨10, [], c!"ok", []⟩], 2, none⟩, sepaBalance]⟩

example : ∃ bs t, sepaAccountBalances (served [firstBalance, secondBalance]) .fints300
      ⟨c!"DE00100200300000123456", c!"ABCDDEFF", c!"123456", [], 280, c!"10020030"⟩ false 2 [] synchronised = some (.ok bs, t) ∧
    List.Forall₂ (fun r b => r.1.ReportedAs r.2 b) [(sepaReport, none), (sepaReport, none)] bs :=
  C102_sepa_balances (vs := [⟨fine, firstBalance, fine⟩, ⟨fine, secondBalance, fine⟩]) (now := Time.zeroTime) rfl rfl rfl synchronised_settled
    (by decide) (by unfold Latin1; decide) (answering_serves _ _)
    (two_pages (more_continues (by decide +kernel)) (fine_last (by decide +kernel))) (by decide) (by
      intro v hv
      simp only [List.mem_cons, List.not_mem_nil, or_false] at hv
      rcases hv with rfl | rfl
      · refine ⟨fine_visit (answer_of (by
          intro p hp
          simp only [List.mem_cons, List.not_mem_nil, or_false] at hp
          rcases hp with rfl | rfl | rfl
          · exact overall_good
          · exact more_good
          · exact sepaBalance_good) (by decide +kernel)), by simp [firstBalance, Answer.sepaReports, more, sepaBalance, Item.sepaReport], ?_⟩
        intro p hp
        simp only [firstBalance, List.mem_cons, List.not_mem_nil, or_false] at hp
        rcases hp with rfl | rfl | rfl <;> rfl
      · refine ⟨fine_visit (answer_of (by
          intro p hp
          simp only [List.mem_cons, List.not_mem_nil, or_false] at hp
          rcases hp with rfl | rfl
          · exact overall_good
          · exact sepaBalance_good) (by decide +kernel)), by simp [secondBalance, Answer.sepaReports, sepaBalance, Item.sepaReport], ?_⟩
        intro p hp
        simp only [secondBalance, List.mem_cons, List.not_mem_nil, or_false] at hp
        rcases hp with rfl | rfl <;> rfl)

end

end Verif.Bank

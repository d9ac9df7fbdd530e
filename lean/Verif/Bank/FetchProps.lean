import Verif.Bank.AnswerProps
import Verif.Client.BalanceProps
import Verif.Swift.StatementProps

/-
C101: what a caller of the client gets when the bank answers with complete messages.
-/

namespace Verif.Bank

open GoLib Element Element.Spec Segment Segment.Spec Message Message.Spec Dialog Domain Transport Client
open Swift.Spec (Statement)

/-! ## Specification -/

/-- An answer of the bank. -/
structure Answer where
  envelope : Envelope
  segments : List Placed

/-- Its bytes. -/
def Answer.bytes (a : Answer) : Bytes := a.envelope.bytes a.segments

/-- All of it can be written. -/
structure Answer.Good (a : Answer) : Prop where
  envelope : a.envelope.Good
  segments : ∀ p ∈ a.segments, p.Good
  size : (a.segments.map Placed.bytes).flatten.length ≤ 2 ^ 48

/-- The message was answered with these bytes. -/
def Answered (g : Sent BankSeg) (a : Answer) : Prop := g.reply = receive decoders (.ok (a.bytes, true))

/-- The acknowledgements in the answer. -/
def Answer.acks (a : Answer) : List Acknowledgement := acknowledged a.envelope.header.referencingMessage a.segments

/-- The bank reports an error. -/
def Answer.Refuses (a : Answer) : Prop := ∃ x ∈ a.acks, 9000 ≤ x.code

/-- The parameters of the first acknowledgement 3040: there is more, under this reference. -/
def Answer.reference (a : Answer) : Option (List Str) := (a.acks.find? fun x => x.code == 3040).map (·.params)

/-- There is more. -/
def Answer.Continues (a : Answer) : Prop := ∃ r more, r ≠ [] ∧ a.reference = some (r :: more)

/-- There is no more. -/
def Answer.Last (a : Answer) : Prop := a.reference = none ∨ ∃ more, a.reference = some ([] :: more)

/-- The answers are all there are, and none reports an error. -/
def AllPages (as : List Answer) : Prop :=
  ∃ before last, as = before ++ [last] ∧ (∀ a ∈ before, a.Continues) ∧ last.Last ∧ ∀ a ∈ as, ¬ a.Refuses

/-- The balances in the answer. -/
def Answer.reports (a : Answer) : List (Report AccountConnection) := a.segments.filterMap (·.item.report)

/-- The balances in the answer that name the account by IBAN, with the amount that can be seized. -/
def Answer.sepaReports (a : Answer) : List (Report InternationalConnection × Option Amount) :=
  a.segments.filterMap (·.item.sepaReport)

/-- The booked transactions in the answer. -/
def Answer.booked (a : Answer) : Bytes := (a.segments.filterMap (·.item.booked)).flatten

/-! ## Answers and messages -/

theorem Answered.sees {g : Sent BankSeg} {a : Answer} {m : Decrypted BankSeg} (h : Answered g a) (hg : a.Good) (hm : g.reply = .ok m) :
    Sees a.envelope.header a.segments m := by
  obtain ⟨m', h1, h2⟩ := C95_answer hg.envelope hg.segments hg.size
  unfold Answered Answer.bytes at h
  rw [h1, hm] at h
  cases h
  exact h2

theorem Answered.reply {g : Sent BankSeg} {a : Answer} (h : Answered g a) (hg : a.Good) : ∃ m, g.reply = .ok m := by
  obtain ⟨m', h1, h2⟩ := C95_answer hg.envelope hg.segments hg.size
  exact ⟨m', h.trans h1⟩

theorem marked_reference {a : Answer} {m : Decrypted BankSeg} {ps : List Str} (h : m.acknowledgements = a.acks) (hm : Marked m ps) :
    a.reference = some ps := by
  obtain ⟨b, x, c, h1, h2, h3, h4⟩ := hm
  unfold Answer.reference
  rw [← h, h1, List.find?_append]
  have : b.find? (fun x => x.code == 3040) = none := by
    rw [List.find?_eq_none]
    intro y hy
    simpa using h2 y hy
  rw [this, Option.none_or, List.find?_cons_of_pos (by simp [h3])]
  simp [h4]

theorem final_last {a : Answer} {m : Decrypted BankSeg} (h : m.acknowledgements = a.acks) (hm : Final m) : a.Last := by
  rcases hm with hm | ⟨more, hm⟩
  · left
    unfold Answer.reference
    rw [← h, Option.map_eq_none_iff, List.find?_eq_none]
    intro x hx
    simpa using hm x hx
  · exact .inr ⟨more, marked_reference h hm⟩

theorem Answer.Continues.not_last {a : Answer} (h : a.Continues) : ¬ a.Last := by
  obtain ⟨r, more, h1, h2⟩ := h
  rintro (h3 | ⟨more', h3⟩)
  · rw [h3] at h2; cases h2
  · rw [h3] at h2; simp only [Option.some.injEq, List.cons.injEq] at h2; exact h1 h2.1.symm

theorem accepted_iff {a : Answer} {m : Decrypted BankSeg} (h : m.acknowledgements = a.acks) : Accepted m ↔ ¬ a.Refuses := by
  unfold Accepted Answer.Refuses
  rw [h]
  push Not
  rfl

theorem AllPages.of_continues {as : List Answer} (h : ∀ a ∈ as, a.Continues) : ¬ AllPages as := by
  rintro ⟨before, last, rfl, _, h2, _⟩
  exact (h last (by simp)).not_last h2

theorem AllPages.of_refuses {as : List Answer} {a : Answer} (h : a ∈ as) (h1 : a.Refuses) : ¬ AllPages as := by
  rintro ⟨before, last, rfl, _, _, h3⟩
  exact h3 a h h1

theorem AllPages.of_last {as : List Answer} {a : Answer} (h1 : ¬ a.Last) : ¬ AllPages (as ++ [a]) := by
  rintro ⟨before, last, h2, _, h3, _⟩
  obtain ⟨_, h2⟩ := List.append_inj' h2 rfl
  simp only [List.cons.injEq, and_true] at h2
  exact h1 (h2 ▸ h3)

theorem forall₂_map_ok {α β : Type} {f : α → Outcome β} {ds : List α} {bs : List β} :
    List.Forall₂ (fun d b => f d = .ok b) ds bs ↔ ds.map f = bs.map .ok := by
  induction ds generalizing bs with
  | nil => cases bs <;> simp
  | cons d ds ih => cases bs <;> simp [ih]

theorem forall₂_split {α β : Type} {R : α → β → Prop} {xs ys : List α} {zs : List β} (h : List.Forall₂ R (xs ++ ys) zs) :
    ∃ z1 z2, List.Forall₂ R xs z1 ∧ List.Forall₂ R ys z2 ∧ zs = z1 ++ z2 := by
  induction xs generalizing zs with
  | nil => exact ⟨[], zs, .nil, h, rfl⟩
  | cons x xs ih =>
    cases h with
    | cons h1 h2 =>
      obtain ⟨z1, z2, e1, e2, rfl⟩ := ih h2
      exact ⟨_ :: z1, z2, .cons h1 e1, e2, rfl⟩

variable {u : Setup BankSeg AccountInformation (AccountBalance AccountConnection) (AccountBalance InternationalConnection)
  StatusAcknowledgement}

theorem holds_booked {now : Time.Civil} (hv : u.views = clientViews now) {h : ReadHeader} {ps : List Placed} {m : Decrypted BankSeg}
    (hs : Sees h ps m) {bs : List Bytes} (hb : Holds u m bs) : bs = ps.filterMap (·.item.booked) := by
  have h1 := hs.statements now
  have h2 := (holds_iff u m bs).2 hb
  rw [collect_ok, hv] at h2
  have h3 := forall₂_map_ok.1 h2
  rw [h1] at h3
  exact (List.map_injective_iff.2 (fun x y h => by injection h) h3).symm

/-- The pages of a chain and the answers to them. -/
theorem chain_answers {now : Time.Civil} (hv : u.views = clientViews now) {account : AccountConnection} {all : Bool}
    {tf : Domain.Timeframe} {mark next : Str} {ps : List (Fetched BankSeg)} (hc : Chain u account all tf mark ps next) :
    ∀ {as : List Answer}, List.Forall₂ Answered (ps.map Fetched.request) as → (∀ a ∈ as, a.Good) →
      (∀ a ∈ as, a.Continues ∧ ¬ a.Refuses) ∧ (statementsOf ps).flatten = (as.map Answer.booked).flatten := by
  induction hc with
  | nil =>
    intro as h _
    cases h
    exact ⟨by simp, rfl⟩
  | @cons mark r next p m ps hgood hcont _ ih =>
    intro as h hg
    cases h with
    | @cons _ a _ as h1 h2 =>
      obtain ⟨k1, k2⟩ := ih h2 fun a ha => hg a (by simp [ha])
      have hs := h1.sees (hg a (by simp)) hgood.reply
      have hb := holds_booked hv hs hgood.statements
      obtain ⟨hr, more, hm⟩ := hcont
      refine ⟨?_, ?_⟩
      · intro x hx
        rcases List.mem_cons.1 hx with rfl | hx
        · exact ⟨⟨r, more, hr, marked_reference hs.acknowledgements hm⟩, (accepted_iff hs.acknowledgements).1 hgood.accepted⟩
        · exact k1 x hx
      · simp only [statementsOf, List.flatMap_cons, List.flatten_append, List.map_cons, List.flatten_cons] at k2 ⊢
        rw [k2, hb]
        rfl

/-- C101: the caller of `AccountTransactions` gets exactly the transactions of the statements that
the bank has put into its answers, in their order: whatever other segments the answers hold, how
many pages there are, and at whatever places the statements are cut into segments and pages.
Without all pages there is no result.  (The exception is an answer to the last dialog end that
crashes the dialog.) -/
theorem C101_transactions {now : Time.Civil} (hv : u.views = clientViews now)
    (hclock : StrictMono u.clock) {L : Swift.Lib} (h1 : 1000 ≤ L.year) (h2 : L.year ≤ 9999) {c : Client} {account : AccountConnection}
    {all : Bool} {tf : Domain.Timeframe} {mark : Str} {fuel : Nat} {s t : CSt BankSeg AccountInformation}
    {r : Outcome (List (Swift.Transaction L.F))}
    (h : transactions u L c (plainBuilder account all) tf mark fuel s = some (r, t))
    {log : List (Sent BankSeg)} (hlog : t.st.sent = s.st.sent ++ log) {as : List Answer}
    (ha : List.Forall₂ Answered (log.filter fun e => e.kind = .job) as) (hg : ∀ a ∈ as, a.Good) {ss : List Statement} (hne : ss ≠ [])
    (hss : (as.map Answer.booked).flatten = (ss.map Statement.text).flatten)
    (hok : ∀ s ∈ ss, s.Ok (L.year / 100 * 100) ∧ Swift.Amounts L s ∧ ∀ e ∈ s.entries, ¬ Swift.Spec.Crash e.rest) :
    (AllPages as ∧ ∃ parts : List (List (Swift.Transaction L.F)), r = .ok parts.flatten ∧
      List.Forall₂ (fun s p => List.Forall₂ (Swift.Reported L (L.year / 100 * 100) s) s.entries p) ss parts) ∨
    ((∀ txs, r ≠ .ok txs) ∧ (¬ AllPages as ∨ EndCrashed log)) := by
  obtain ⟨log', ps, k1, k2⟩ := C35_outcome u L c account all tf mark fuel s t r h
  obtain rfl : log = log' := List.append_cancel_left (hlog.symm.trans k1)
  rcases k2 with ⟨k2, k3, order, k4, k5, k6⟩ | ⟨k2, ⟨next, k3⟩, k4⟩ | ⟨e, next, k2, k3, k4, k5, k6⟩
  · left
    rw [k5 hclock] at k6
    obtain ⟨before, last, m, rr, rfl, q2, q3, q4⟩ := k3
    rw [k2, List.map_append] at ha
    obtain ⟨as1, as2, e1, e2, rfl⟩ := forall₂_split ha
    obtain ⟨c1, c2⟩ := chain_answers hv q2 e1 fun a ha => hg a (by simp [ha])
    cases e2 with
    | @cons _ a _ x e3 e4 =>
      cases e4
      have hs := e3.sees (hg a (by simp)) q3.reply
      have hb := holds_booked hv hs q3.statements
      have : (statementsOf (before ++ [last])).flatten = (ss.map Statement.text).flatten := by
        rw [← hss]
        simp only [statementsOf, List.flatMap_append, List.flatten_append, List.flatMap_cons, List.flatMap_nil, List.append_nil,
          List.map_append, List.map_cons, List.map_nil, List.flatten_cons, List.flatten_nil] at c2 ⊢
        rw [c2, hb]
        rfl
      rw [this] at k6
      obtain ⟨parts, p1, p2⟩ := Swift.C100_statements h1 h2 hne (fun s hs => ⟨(hok s hs).1, (hok s hs).2.1⟩)
        fun s hs => (hok s hs).2.2
      refine ⟨⟨as1, a, rfl, fun x hx => (c1 x hx).1, final_last hs.acknowledgements q4, fun x hx => ?_⟩, parts, by rw [k6, p1], p2⟩
      simp only [List.mem_append, List.mem_cons, List.not_mem_nil, or_false] at hx
      rcases hx with hx | rfl
      · exact (c1 x hx).2
      · exact (accepted_iff hs.acknowledgements).1 q3.accepted
  · right
    rw [k2] at ha
    exact ⟨k4, .inl (AllPages.of_continues fun a h => ((chain_answers hv k3 ha hg).1 a h).1)⟩
  · right
    refine ⟨k5, ?_⟩
    rw [k2] at ha
    obtain ⟨as1, as2, e1, e2, rfl⟩ := forall₂_split ha
    cases e2 with
    | @cons _ a _ x e3 e4 =>
      cases e4
      obtain ⟨m, hm⟩ := e3.reply (hg a (by simp))
      have hs := e3.sees (hg a (by simp)) hm
      by_cases hacc : Accepted m
      · rcases k6 m hm hacc with hend | hx
        · exact .inr hend
        · left
          have hb : Holds u m (a.segments.filterMap (·.item.booked)) := by
            rw [← holds_iff, collect_ok, hv]
            exact forall₂_map_ok.2 (hs.statements now)
          have := marked_reference hs.acknowledgements (hx _ hb).1
          refine AllPages.of_last ?_
          rintro (h | ⟨more, h⟩) <;> rw [this] at h <;> simp at h
      · rw [accepted_iff hs.acknowledgements, not_not] at hacc
        exact .inl (AllPages.of_refuses (by simp) hacc)

/-! ## Balances -/

theorem views_reported {ε κ : Type} {f : BankSeg → Outcome ε} {id : Str} {m : Decrypted BankSeg} {R : κ → ε → Prop} {ks : List κ}
    {v : Decoded BankSeg → Outcome ε} (hv : ∀ d e, v d = .ok e → ∃ y, d = .other y ∧ f y = .ok e)
    (h : List.Forall₂ (fun k d => ∃ e, v d = .ok e ∧ R k e) ks (m.segments id)) :
    ∃ xs, Views f id m xs ∧ List.Forall₂ R ks xs := by
  unfold Client.Views
  generalize m.segments id = ds at h
  induction h with
  | nil => exact ⟨[], .nil, .nil⟩
  | cons h _ ih =>
    obtain ⟨xs, h1, h2⟩ := ih
    obtain ⟨e, h3, h4⟩ := h
    exact ⟨e :: xs, .cons (hv _ _ h3) h1, .cons h4 h2⟩

theorem checked_other {ε : Type} {f : BankSeg → Outcome ε} : ∀ d e, viewChecked f d = .ok e → ∃ y, d = .other y ∧ f y = .ok e := by
  intro d e h
  cases d with
  | ack => simp [viewChecked] at h
  | other y => exact ⟨y, rfl, h⟩

/-- What a call with one request returns. -/
theorem one_request {ε κ : Type} {s t : CSt BankSeg AccountInformation} {asks : Sent BankSeg → Prop}
    {holds : Decrypted BankSeg → List ε → Prop} {r : Outcome (List ε)} (h : OneRequest s t asks holds r)
    {items : Answer → List κ} {R : κ → ε → Prop} {enough : List κ → Prop}
    (hread : ∀ (a : Answer) m, a.Good → Sees a.envelope.header a.segments m →
      ∃ xs, List.Forall₂ R (items a) xs ∧ (enough (items a) ↔ holds m xs) ∧ ∀ ys, holds m ys → ys = xs)
    {log : List (Sent BankSeg)} (hlog : t.st.sent = s.st.sent ++ log) {as : List Answer}
    (ha : List.Forall₂ Answered (log.filter fun e => e.kind = .job) as) (hg : ∀ a ∈ as, a.Good) :
    (∃ a xs, as = [a] ∧ ¬ a.Refuses ∧ enough (items a) ∧ r = .ok xs ∧ List.Forall₂ R (items a) xs) ∨
    ((∀ xs, r ≠ .ok xs) ∧ (as = [] ∨ EndCrashed log ∨ ∃ a, as = [a] ∧ (a.Refuses ∨ ¬ enough (items a)))) := by
  obtain ⟨log', k1, k2⟩ := h
  obtain rfl : log = log' := List.append_cancel_left (hlog.symm.trans k1)
  rcases k2 with ⟨e, m, xs, k2, _, k3, k4, k5, k6⟩ | ⟨k2, k3⟩ | ⟨e, k2, _, k3, k4⟩
  · left
    rw [k2] at ha
    cases ha with
    | @cons _ a _ l h1 h2 =>
      cases h2
      have hs := h1.sees (hg a (by simp)) k3
      obtain ⟨ys, y1, y2, y3⟩ := hread a m (hg a (by simp)) hs
      obtain rfl := y3 xs k5
      exact ⟨a, xs, rfl, (accepted_iff hs.acknowledgements).1 k4, y2.2 k5, k6, y1⟩
  · right
    rw [k2] at ha
    cases ha
    exact ⟨k3, .inl rfl⟩
  · right
    rw [k2] at ha
    cases ha with
    | @cons _ a _ l h1 h2 =>
      cases h2
      obtain ⟨m, hm⟩ := h1.reply (hg a (by simp))
      have hs := h1.sees (hg a (by simp)) hm
      obtain ⟨ys, y1, y2, y3⟩ := hread a m (hg a (by simp)) hs
      refine ⟨k3, ?_⟩
      by_cases hr : a.Refuses
      · exact .inr (.inr ⟨a, rfl, .inl hr⟩)
      · rcases k4 m hm ((accepted_iff hs.acknowledgements).2 hr) with hend | hno
        · exact .inr (.inl hend)
        · exact .inr (.inr ⟨a, rfl, .inr fun he => hno ys (y2.1 he)⟩)

/-- C101: the caller of `AccountBalances` gets exactly the balances of the answer, in order,
whatever other segments it has.  Without an answer, with an error in it or without any balance
there is no result.  (The exception is an answer to the dialog end that crashes the dialog.) -/
theorem C101_balances {now : Time.Civil} (hv : u.views = clientViews now) {c : Client} {account : AccountConnection} {all : Bool}
    {s : CSt BankSeg AccountInformation} {log : List (Sent BankSeg)}
    (hlog : (accountBalances u c account all s).2.st.sent = s.st.sent ++ log) {as : List Answer}
    (ha : List.Forall₂ Answered (log.filter fun e => e.kind = .job) as) (hg : ∀ a ∈ as, a.Good) :
    (∃ a bs, as = [a] ∧ ¬ a.Refuses ∧ a.reports ≠ [] ∧ (accountBalances u c account all s).1 = .ok bs ∧
      List.Forall₂ (fun r b => r.ReportedAs none b) a.reports bs) ∨
    ((∀ bs, (accountBalances u c account all s).1 ≠ .ok bs) ∧
      (as = [] ∨ EndCrashed log ∨ ∃ a, as = [a] ∧ (a.Refuses ∨ a.reports = []))) := by
  have := one_request (items := Answer.reports) (R := fun r b => r.ReportedAs none b) (enough := fun l => l ≠ [])
    (C81_balances u c account all s) ?_ hlog ha hg
  · simpa only [not_not, ne_eq] using this
  · intro a m _ hs
    obtain ⟨xs, h1, h2⟩ := views_reported checked_other (hs.balances now)
    refine ⟨xs, h2, ⟨fun hne => ⟨by rw [hv]; exact h1, ?_⟩, fun hx => ?_⟩, fun ys hy => Views.unique hy.1 (by rw [hv]; exact h1)⟩
    · rintro rfl
      cases hr : a.reports with
      | nil => exact hne hr
      | cons x l => unfold Answer.reports at hr; rw [hr] at h2; cases h2
    · intro hr
      unfold Answer.reports at hr
      rw [hr] at h2
      cases h2
      exact hx.2 rfl

/-- C101: the caller of `SepaAccountBalances` gets exactly the balances of all pages, in order.
Every page has to have one, and none may name the account by number only.  Without all pages there
is no result.  (The exception is an answer to the last dialog end that crashes the dialog.) -/
theorem C101_sepa_balances {now : Time.Civil} (hv : u.views = clientViews now) {c : Client} {account : InternationalConnection}
    {all : Bool} : ∀ {fuel : Nat} {mark : Str} {s t : CSt BankSeg AccountInformation}
    {r : Outcome (List (AccountBalance InternationalConnection))} {log : List (Sent BankSeg)} {as : List Answer},
    sepaAccountBalances u c account all fuel mark s = some (r, t) → t.st.sent = s.st.sent ++ log →
    List.Forall₂ Answered (log.filter fun e => e.kind = .job) as → (∀ a ∈ as, a.Good) →
    (∀ a ∈ as, ∀ p ∈ a.segments, p.item.report.isSome = p.item.sepaReport.isSome) →
    (AllPages as ∧ (∀ a ∈ as, a.sepaReports ≠ []) ∧ ∃ bs, r = .ok bs ∧
      List.Forall₂ (fun r b => r.1.ReportedAs r.2 b) (as.flatMap Answer.sepaReports) bs) ∨
    ((∀ bs, r ≠ .ok bs) ∧ (¬ AllPages as ∨ EndCrashed log ∨ ∃ a ∈ as, a.sepaReports = [])) := by
  intro fuel
  induction fuel with
  | zero => intro mark s t r log as h; simp [sepaAccountBalances] at h
  | succ fuel ih =>
    intro mark s t r log as h hlog ha hg hn
    rw [sepaAccountBalances] at h
    obtain ⟨log1, hlog1, hcases⟩ := balancePage_cases u c account all mark s
    generalize balancePage u c account all mark s = X at h hlog1 hcases
    obtain ⟨q, t1⟩ := X
    simp only at hlog1 hcases
    have hread : ∀ a ∈ as, ∀ m, Sees a.envelope.header a.segments m →
        ∃ xs, Client.Views u.views.sepaBalance c!"HISAL" m xs ∧
          List.Forall₂ (fun (r : Report InternationalConnection × Option Amount) b => r.1.ReportedAs r.2 b) a.sepaReports xs := by
      intro a ha m hs
      rw [hv]
      exact views_reported checked_other (hs.sepaBalances (hn a ha) now)
    have hnil : ∀ {a : Answer} {xs : List (AccountBalance InternationalConnection)},
        List.Forall₂ (fun (r : Report InternationalConnection × Option Amount) b => r.1.ReportedAs r.2 b) a.sepaReports xs →
        (xs = [] ↔ a.sepaReports = []) := by
      intro a xs h
      constructor
      · rintro rfl
        generalize a.sepaReports = l at h
        cases h; rfl
      · intro hl
        rw [hl] at h
        cases h; rfl
    have bad : (∀ x, q ≠ .ok x) → t1 = t → ¬ AllPages as ∨ EndCrashed log ∨ ∃ a ∈ as, a.sepaReports = [] := by
      rintro hq rfl
      obtain rfl : log = log1 := List.append_cancel_left (hlog.symm.trans hlog1)
      rcases hcases with ⟨h1, _⟩ | ⟨e, h1, h2, ⟨m, xs, r', h3, _⟩ | ⟨_, h4⟩⟩
      · change List.Forall₂ Answered (jobs log) as at ha
        rw [h1] at ha
        cases ha
        exact .inl (AllPages.of_continues (by simp))
      · exact absurd h3 (hq _)
      · change List.Forall₂ Answered (jobs log) as at ha
        rw [h1] at ha
        cases ha with
        | @cons _ a _ l e1 e2 =>
          cases e2
          obtain ⟨m, hm⟩ := e1.reply (hg a (by simp))
          have hs := e1.sees (hg a (by simp)) hm
          by_cases hr : a.Refuses
          · exact .inl (AllPages.of_refuses (by simp) hr)
          · rcases h4 m hm ((accepted_iff hs.acknowledgements).2 hr) with hend | hno
            · exact .inr (.inl hend)
            · obtain ⟨xs, x1, x2⟩ := hread a (by simp) m hs
              by_cases hx : xs = []
              · exact .inr (.inr ⟨a, by simp, (hnil x2).1 hx⟩)
              · left
                have hc := hno xs ⟨x1, hx⟩
                refine AllPages.of_last (as := []) ?_
                rcases continuation_cases m with ⟨_, c2⟩ | ⟨c1, _⟩ | ⟨p, ps, _, c2⟩
                · exact absurd c2 (hc _)
                · have := marked_reference hs.acknowledgements c1
                  rintro (h | ⟨more, h⟩) <;> rw [this] at h <;> simp at h
                · exact absurd c2 (hc _)
    cases q with
    | err =>
      simp only [Option.some.injEq, Prod.mk.injEq] at h
      obtain ⟨rfl, rfl⟩ := h
      exact .inr ⟨by simp, bad (by simp) rfl⟩
    | panic =>
      simp only [Option.some.injEq, Prod.mk.injEq] at h
      obtain ⟨rfl, rfl⟩ := h
      exact .inr ⟨by simp, bad (by simp) rfl⟩
    | ok x =>
      obtain ⟨bs, next⟩ := x
      clear bad
      rcases hcases with ⟨_, h1⟩ | ⟨e, h1, h2, ⟨m, xs, r', h3, h4, h5, h6, h7⟩ | ⟨h3, _⟩⟩
      · exact absurd rfl (h1 _)
      · simp only [Outcome.ok.injEq, Prod.mk.injEq] at h3
        obtain ⟨rfl, rfl⟩ := h3
        obtain ⟨m1, m2⟩ := marks_of_continuation h7
        simp only at h
        split at h
        · rename_i hn'
          simp only [Option.some.injEq, Prod.mk.injEq] at h
          obtain ⟨rfl, rfl⟩ := h
          obtain rfl : log = log1 := List.append_cancel_left (hlog.symm.trans hlog1)
          change List.Forall₂ Answered (jobs log) as at ha
          rw [h1] at ha
          cases ha with
          | @cons _ a _ l e1 e2 =>
            cases e2
            have hs := e1.sees (hg a (by simp)) h4
            obtain ⟨ys, x1, x2⟩ := hread a (by simp) m hs
            obtain rfl := Views.unique h6.1 x1
            refine .inl ⟨⟨[], a, rfl, by simp, final_last hs.acknowledgements (m1 hn'), ?_⟩, ?_, bs, rfl, by simpa using x2⟩
            · simpa using (accepted_iff hs.acknowledgements).1 h5
            · simpa using fun h => h6.2 ((hnil x2).2 h)
        · rename_i hn'
          simp only [Option.map_eq_some_iff] at h
          obtain ⟨⟨r2, t2⟩, hr, h⟩ := h
          simp only [Prod.mk.injEq] at h
          obtain ⟨rfl, rfl⟩ := h
          obtain ⟨log2, l1, _⟩ := C80_pages u c account all fuel next t1 t2 r2 hr
          obtain rfl : log = log1 ++ log2 := List.append_cancel_left
            (hlog.symm.trans (by rw [l1, hlog1, List.append_assoc]))
          have hj : (log1 ++ log2).filter (fun e => e.kind = .job) = e :: log2.filter (fun e => e.kind = .job) := by
            have := jobs_append log1 log2
            rw [h1] at this
            exact this
          rw [hj] at ha
          cases ha with
          | @cons _ a _ as e1 e2 =>
            have hs := e1.sees (hg a (by simp)) h4
            obtain ⟨ys, x1, x2⟩ := hread a (by simp) m hs
            obtain rfl := Views.unique h6.1 x1
            have hcont : a.Continues := by
              obtain ⟨c1, more, c2⟩ := m2 hn'
              exact ⟨next, more, c1, marked_reference hs.acknowledgements c2⟩
            have hok := (accepted_iff hs.acknowledgements).1 h5
            rcases ih hr l1 e2 (fun a ha => hg a (by simp [ha])) (fun a ha => hn a (by simp [ha])) with
              ⟨⟨before, last, p1, p2, p3, p4⟩, k2, zs, rfl, k3⟩ | ⟨k1, k2⟩
            · left
              refine ⟨⟨a :: before, last, by rw [p1]; rfl, ?_, p3, ?_⟩, ?_, bs ++ zs, rfl, ?_⟩
              · intro x hx
                rcases List.mem_cons.1 hx with rfl | hx
                · exact hcont
                · exact p2 x hx
              · intro x hx
                rcases List.mem_cons.1 hx with rfl | hx
                · exact hok
                · exact p4 x hx
              · intro x hx
                rcases List.mem_cons.1 hx with rfl | hx
                · exact fun h => h6.2 ((hnil x2).2 h)
                · exact k2 x hx
              · rw [List.flatMap_cons]
                exact List.rel_append x2 k3
            · right
              refine ⟨fun bs hb => ?_, ?_⟩
              · obtain ⟨zs, hz, _⟩ := Dialog.map_ok hb
                exact k1 zs hz
              · rcases k2 with k2 | k2 | ⟨x, k2, k3⟩
                · left
                  rintro ⟨before, last, p1, p2, p3, p4⟩
                  cases before with
                  | nil =>
                    simp only [List.nil_append, List.cons.injEq] at p1
                    obtain ⟨rfl, rfl⟩ := p1
                    exact hcont.not_last p3
                  | cons b before =>
                    simp only [List.cons_append, List.cons.injEq] at p1
                    obtain ⟨rfl, rfl⟩ := p1
                    exact k2 ⟨before, last, rfl, fun x hx => p2 x (by simp [hx]), p3, fun x hx => p4 x (List.mem_cons_of_mem _ hx)⟩
                · right; left
                  obtain ⟨f, f1, f2⟩ := k2
                  exact ⟨f, by rw [List.getLast?_append, f1]; rfl, f2⟩
                · exact .inr (.inr ⟨x, by simp [k2], k3⟩)
      · exact absurd rfl (h3 _)

end Verif.Bank

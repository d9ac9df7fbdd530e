import Verif.Client.Props

/-
C80, C81: balances and status information.
-/

namespace Verif.Client

open GoLib Element Element.Spec Segment Message Domain Transport Dialog

variable {σ α β γ δ ε : Type}

/-! ## Specification -/

/-- What a view makes of the segments with an ID, in their order. -/
def Views (f : σ → Outcome ε) (id : Str) (m : Decrypted σ) (xs : List ε) : Prop :=
  List.Forall₂ (fun d x => ∃ y, d = .other y ∧ f y = .ok x) (m.segments id) xs

/-- A job that asks for something: a TAN request and one segment. -/
def Requests (id : Str) (version : Int) (elements : List (Option DE)) (e : Sent σ) : Prop :=
  e.kind = .job ∧ bodies (e.plain.content.getD []) =
    [(c!"HKTAN", 6, [some (.alnum c!"4" 1), some (.alnum c!"HKIDN" 6), none, none, none, none, none]), (id, version, elements)]

/-- A request for balances of an account given by its number. -/
def AsksBalance (account : AccountConnection) (all : Bool) (e : Sent σ) : Prop :=
  ∃ version : Int, (version = 5 ∨ version = 6) ∧
    Requests c!"HKSAL" version [some (accountConnectionDE account), some (.boolean all), none, none] e

/-- A request for balances of an account given by its IBAN, with a continuation reference unless
it is empty. -/
def AsksSepa (account : InternationalConnection) (all : Bool) (mark : Str) (e : Sent σ) : Prop :=
  ∃ version : Int, (version = 7 ∨ version = 8) ∧
    Requests c!"HKSAL" version [some (internationalDE account), some (.boolean all), none,
      if mark = [] then none else some (.alnum mark 35)] e

/-- A request for status information. -/
def AsksStatus (start stop : Time.Civil) (maxEntries : Int) (mark : Str) (e : Sent σ) : Prop :=
  ∃ version : Int, (version = 3 ∨ version = 4) ∧
    Requests c!"HKPRO" version [some (.date start), some (.date stop), some (.number maxEntries 4),
      if mark = [] then none else some (.alnum mark 35)] e

/-- Requests and what their answers hold, from the reference `mark` on to the last page.  Every
answer is without error. -/
inductive Pages (asks : Str → Sent σ → Prop) (holds : Decrypted σ → List ε → Prop) :
    Str → List (Sent σ × List ε) → Prop where
  | last {mark : Str} {e : Sent σ} {m : Decrypted σ} {xs : List ε} :
      asks mark e → e.reply = .ok m → Accepted m → holds m xs → Final m → Pages asks holds mark [(e, xs)]
  | more {mark r : Str} {e : Sent σ} {m : Decrypted σ} {xs : List ε} {ps : List (Sent σ × List ε)} :
      asks mark e → e.reply = .ok m → Accepted m → holds m xs → Continues m r → Pages asks holds r ps →
      Pages asks holds mark ((e, xs) :: ps)

/-- The last message sent is the end of a dialog, and its answer crashed the dialog. -/
def EndCrashed (log : List (Sent σ)) : Prop := ∃ f, log.getLast? = some f ∧ f.kind = .end_ ∧ f.reply = .panic

/-! ## One request -/

theorem views_iff (f : σ → Outcome ε) (id : Str) (m : Decrypted σ) (xs : List ε) :
    collect (viewChecked f) (m.segments id) = .ok xs ↔ Views f id m xs := by
  rw [collect_ok]
  unfold Views
  have : (fun (x : Decoded σ) b => viewChecked f x = .ok b) = fun x b => ∃ y, x = .other y ∧ f y = .ok b := by
    funext x b
    cases x <;> simp [viewChecked]
  rw [this]

theorem views_of_iff (f : σ → Outcome ε) (id : Str) (m : Decrypted σ) (xs : List ε) :
    collect (viewOf f) (m.segments id) = .ok xs ↔ Views f id m xs := by
  rw [collect_ok]
  unfold Views
  have : (fun (x : Decoded σ) b => viewOf f x = .ok b) = fun x b => ∃ y, x = .other y ∧ f y = .ok b := by
    funext x b
    cases x <;> simp [viewOf]
  rw [this]

theorem Views.unique {f : σ → Outcome ε} {id : Str} {m : Decrypted σ} {xs ys : List ε} (h1 : Views f id m xs)
    (h2 : Views f id m ys) : xs = ys := by
  rw [← views_iff] at h1 h2
  rw [h1] at h2
  simpa using h2

theorem Views.length {f : σ → Outcome ε} {id : Str} {m : Decrypted σ} {xs : List ε} (h : Views f id m xs) :
    m.segments id = [] ↔ xs = [] := by
  have := List.Forall₂.length_eq h
  rw [← List.length_eq_zero_iff, this, List.length_eq_zero_iff]

theorem readBalances_iff (f : σ → Outcome ε) (m : Decrypted σ) (xs : List ε) :
    readBalances f m = .ok xs ↔ Views f c!"HISAL" m xs ∧ xs ≠ [] := by
  unfold readBalances
  rw [Dialog.bind_eq_ok]
  constructor
  · rintro ⟨ys, h1, h2⟩
    rw [views_iff] at h1
    split at h2
    · simp at h2
    · rename_i hn
      simp only [Outcome.ok.injEq] at h2
      subst h2
      exact ⟨h1, fun h => hn ((Views.length h1).2 h)⟩
  · rintro ⟨h1, h2⟩
    refine ⟨xs, (views_iff _ _ _ _).2 h1, ?_⟩
    rw [if_neg (fun h => h2 ((Views.length h1).1 h))]

/-- Sending a job: it is not sent, or sent once and then its answer is handed on. -/
theorem ask_cases (u : Setup σ α β γ δ) (j : Job) (s : CSt σ α) :
    ∃ log, (send u j s).2.st.sent = s.st.sent ++ log ∧
      ((jobs log = [] ∧ ∀ m, (send u j s).1 ≠ .ok m) ∨
       ∃ e v n id, jobs log = [e] ∧ Logged u.world e .job v n id j.segments ∧
        ((∃ m, (send u j s).1 = .ok m ∧ e.reply = .ok m ∧ Accepted m) ∨
         ((∀ m, (send u j s).1 ≠ .ok m) ∧ ∀ m, e.reply = .ok m → Accepted m → EndCrashed log))) := by
  obtain ⟨log, h1, h2⟩ := send_cases u.world j s.st
  refine ⟨log, h1, ?_⟩
  rcases h2 with ⟨h2, h3⟩ | ⟨pre, g, f, v, n, id, h2, h3, h4, h5, h6⟩
  · exact .inl ⟨jobs_nil h2, h3⟩
  · refine .inr ⟨g, v, n, id, ?_, h4, ?_⟩
    · rw [h2, jobs_append, jobs_nil h3]
      simp [jobs, h4.kind, h5]
    · by_cases hx : ∃ m, (send u j s).1 = .ok m
      · obtain ⟨m, hm⟩ := hx
        obtain ⟨_, k2, k3⟩ := (h6 m).1 hm
        exact .inl ⟨m, hm, k2, k3⟩
      · push Not at hx
        refine .inr ⟨hx, fun m hm ha => ⟨f, by rw [h2]; simp, h5, ?_⟩⟩
        by_contra hf
        exact hx m ((h6 m).2 ⟨hf, hm, ha⟩)

/-- A segment of a job is a request. -/
theorem logged_requests {w : World σ α} {c : Client} {q : Seg} {e : Sent σ} {v n : Int} {id : Str}
    (h : Logged w e .job v n id (jobOf c q).segments) : Requests q.header.id q.header.version q.elements e :=
  ⟨h.kind, h.body⟩

theorem choose_table {ι : Type} {b : Builder} {id : Str} {table : Int → Option ι} {f : ι}
    (h : b.choose id (firstImplemented table) = .ok f) : ∃ v, table v = some f := by
  unfold Builder.choose at h
  split at h
  · simp at h
  · unfold firstImplemented at h
    rename_i versions _
    cases hx : (descending versions).findSome? table with
    | none => rw [hx] at h; simp at h
    | some g =>
      rw [hx] at h
      simp only [Outcome.ofOption, Outcome.ok.injEq] at h
      obtain ⟨x, _, hx⟩ := List.exists_of_findSome?_eq_some hx
      exact ⟨x, by rw [hx, h]⟩

theorem balance_asks {b : Builder} {account : AccountConnection} {all : Bool} {q : BalanceRequest} {e : Sent σ}
    (hq : b.balance account all = .ok q) (he : Requests q.seg.header.id q.seg.header.version q.seg.elements e) :
    AsksBalance account all e := by
  unfold Builder.balance at hq
  obtain ⟨f, hf, rfl⟩ := map_ok hq
  obtain ⟨v, hv⟩ := choose_table hf
  unfold balanceTable at hv
  split at hv
  · simp only [Option.some.injEq] at hv
    subst hv
    exact ⟨5, .inl rfl, he⟩
  · simp only [Option.some.injEq] at hv
    subst hv
    exact ⟨6, .inr rfl, he⟩
  · simp at hv

theorem sepa_asks {b : Builder} {account : InternationalConnection} {all : Bool} {mark : Str} {q : BalanceRequest} {e : Sent σ}
    (hq : b.sepaBalance account all = .ok q)
    (he : Requests (if mark = [] then q else q.setContinuationMark mark).seg.header.id
      (if mark = [] then q else q.setContinuationMark mark).seg.header.version
      (if mark = [] then q else q.setContinuationMark mark).seg.elements e) : AsksSepa account all mark e := by
  unfold Builder.sepaBalance at hq
  obtain ⟨f, hf, rfl⟩ := map_ok hq
  obtain ⟨v, hv⟩ := choose_table hf
  have key : ∀ n : Int, (n = 7 ∨ n = 8) → f = newSepaBalanceRequest n → AsksSepa account all mark e := by
    rintro n hn rfl
    refine ⟨n, hn, ?_⟩
    by_cases hm : mark = []
    · simp only [if_pos hm] at he ⊢
      exact he
    · simp only [if_neg hm] at he ⊢
      exact he
  unfold sepaBalanceTable at hv
  split at hv
  · exact key 7 (.inl rfl) (by simpa using hv.symm)
  · exact key 8 (.inr rfl) (by simpa using hv.symm)
  · simp at hv

theorem status_asks {b : Builder} {start stop : Time.Civil} {maxEntries : Int} {mark : Str} {q : Seg} {e : Sent σ}
    (hq : b.status start stop maxEntries mark = .ok q) (he : Requests q.header.id q.header.version q.elements e) :
    AsksStatus start stop maxEntries mark e := by
  unfold Builder.status at hq
  obtain ⟨f, hf, rfl⟩ := map_ok hq
  obtain ⟨v, hv⟩ := choose_table hf
  unfold statusTable at hv
  split at hv
  · simp only [Option.some.injEq] at hv
    subst hv
    exact ⟨3, .inl rfl, he⟩
  · simp only [Option.some.injEq] at hv
    subst hv
    exact ⟨4, .inr rfl, he⟩
  · simp at hv

/-! ## Balances by account number, status -/

/-- What a call with one request leaves. -/
def OneRequest {ρ : Type} (s t : CSt σ α) (asks : Sent σ → Prop) (holds : Decrypted σ → ρ → Prop) (r : Outcome ρ) : Prop :=
  ∃ log, t.st.sent = s.st.sent ++ log ∧
    ((∃ e m xs, log.filter (fun e => e.kind = .job) = [e] ∧ asks e ∧ e.reply = .ok m ∧ Accepted m ∧ holds m xs ∧ r = .ok xs) ∨
     (log.filter (fun e => e.kind = .job) = [] ∧ ∀ xs, r ≠ .ok xs) ∨
     ∃ e, log.filter (fun e => e.kind = .job) = [e] ∧ asks e ∧ (∀ xs, r ≠ .ok xs) ∧
       ∀ m, e.reply = .ok m → Accepted m → EndCrashed log ∨ ∀ xs, ¬ holds m xs)

/-- C81: AccountBalances sends at most one request.  It returns balances exactly if that was
answered without error and the answer has at least one HISAL segment and all of them are
readable; then they are these, in order.  (The exception is an answer to the dialog end that
crashes the dialog.) -/
theorem C81_balances (u : Setup σ α β γ δ) (c : Client) (account : AccountConnection) (all : Bool) (s : CSt σ α) :
    OneRequest s (accountBalances u c account all s).2 (AsksBalance account all)
      (fun m xs => Views u.views.balance c!"HISAL" m xs ∧ xs ≠ []) (accountBalances u c account all s).1 := by
  unfold accountBalances
  obtain ⟨S, hS, hk⟩ := init_log u s
  generalize init u s = X at hS
  obtain ⟨q, t⟩ := X
  simp only at hS
  cases q with
  | err => exact ⟨S, hS, .inr (.inl ⟨jobs_nil hk, by simp⟩)⟩
  | panic => exact ⟨S, hS, .inr (.inl ⟨jobs_nil hk, by simp⟩)⟩
  | ok x =>
    simp only
    cases hq : (newBuilder t.st.d.supportedSegments).balance account all with
    | err => exact ⟨S, hS, .inr (.inl ⟨jobs_nil hk, by simp⟩)⟩
    | panic => exact ⟨S, hS, .inr (.inl ⟨jobs_nil hk, by simp⟩)⟩
    | ok q =>
      obtain ⟨log, h1, h2⟩ := ask_cases u (jobOf c q.seg) t
      have hj : ∀ l, jobs log = l → (S ++ log).filter (fun e => e.kind = .job) = l := by
        intro l hl
        have := jobs_append S log
        rw [jobs_nil hk, hl] at this
        exact this
      refine ⟨S ++ log, by rw [h1, hS, List.append_assoc], ?_⟩
      simp only
      rcases h2 with ⟨h2, h3⟩ | ⟨e, v, n, id, h2, h3, ⟨m, h4, h5, h6⟩ | ⟨h4, h5⟩⟩
      · refine .inr (.inl ⟨hj _ h2, ?_⟩)
        intro xs hx
        obtain ⟨m, hm, _⟩ := Dialog.bind_ok hx
        exact h3 m hm
      · have ha := balance_asks hq (logged_requests h3)
        rw [h4]
        simp only [Outcome.bind]
        cases hr : readBalances u.views.balance m with
        | ok xs => exact .inl ⟨e, m, xs, hj _ h2, ha, h5, h6, (readBalances_iff _ _ _).1 hr, rfl⟩
        | err =>
          refine .inr (.inr ⟨e, hj _ h2, ha, by simp, fun m' hm' _ => .inr fun xs hx => ?_⟩)
          rw [h5] at hm'
          cases hm'
          rw [← readBalances_iff, hr] at hx
          simp at hx
        | panic =>
          refine .inr (.inr ⟨e, hj _ h2, ha, by simp, fun m' hm' _ => .inr fun xs hx => ?_⟩)
          rw [h5] at hm'
          cases hm'
          rw [← readBalances_iff, hr] at hx
          simp at hx
      · refine .inr (.inr ⟨e, hj _ h2, balance_asks hq (logged_requests h3), ?_, fun m hm ha => .inl ?_⟩)
        · intro xs hx
          obtain ⟨m, hm, _⟩ := Dialog.bind_ok hx
          exact h4 m hm
        · obtain ⟨f, f1, f2⟩ := h5 m hm ha
          exact ⟨f, by rw [List.getLast?_append, f1]; rfl, f2⟩

/-- C81: an answer without any balance is an error of the call, not an empty list and not a
crash. -/
theorem C81_no_balance (u : Setup σ α β γ δ) (c : Client) (account : AccountConnection) (all : Bool) (s : CSt σ α)
    {log : List (Sent σ)} (hs : (accountBalances u c account all s).2.st.sent = s.st.sent ++ log) {e : Sent σ} (he : e ∈ log)
    (hk : e.kind = .job) {m : Decrypted σ} (hm : e.reply = .ok m) (ha : Accepted m) (hc : ¬ EndCrashed log)
    (hn : m.segments c!"HISAL" = []) : (accountBalances u c account all s).1 = .err := by
  unfold accountBalances at hs ⊢
  obtain ⟨S, hS, hkk⟩ := init_log u s
  generalize init u s = X at hS hs
  obtain ⟨q, t⟩ := X
  simp only at hS
  cases q with
  | err => rfl
  | panic =>
    simp only at hs
    rw [hS, List.append_cancel_left_eq] at hs
    exact absurd hk (by rw [← hs] at he; exact hkk e he)
  | ok x =>
    simp only at hs ⊢
    cases hq : (newBuilder t.st.d.supportedSegments).balance account all with
    | err => rfl
    | panic =>
      rw [hq] at hs
      simp only at hs
      rw [hS, List.append_cancel_left_eq] at hs
      exact absurd hk (by rw [← hs] at he; exact hkk e he)
    | ok q =>
      rw [hq] at hs
      simp only at hs ⊢
      obtain ⟨log', h1, h2⟩ := ask_cases u (jobOf c q.seg) t
      rw [h1, hS, List.append_assoc, List.append_cancel_left_eq] at hs
      subst hs
      have hmem : e ∈ jobs log' := by
        rcases List.mem_append.1 he with h | h
        · exact absurd hk (hkk e h)
        · simp [jobs, h, hk]
      rcases h2 with ⟨h2, h3⟩ | ⟨e', v, n, id, h2, h3, h4⟩
      · rw [h2] at hmem
        simp at hmem
      · rw [h2, List.mem_singleton] at hmem
        subst hmem
        rcases h4 with ⟨m', h4, h5, _⟩ | ⟨_, h5⟩
        · rw [hm] at h5
          cases h5
          rw [h4]
          simp [readBalances, hn, collect]
        · obtain ⟨f, f1, f2⟩ := h5 m hm ha
          exact absurd ⟨f, by rw [List.getLast?_append, f1]; rfl, f2⟩ hc

/-- C81: Status sends at most one request, for the dates and the number of entries given.  It
returns what the HIPRO segments of the answer say, in order, if there was no error.  Further
pages are not fetched. -/
theorem C81_status (u : Setup σ α β γ δ) (c : Client) (start stop : Time.Civil) (maxEntries : Int) (mark : Str)
    (s : CSt σ α) :
    OneRequest s (status u c start stop maxEntries mark s).2 (AsksStatus start stop maxEntries mark)
      (Views u.views.status c!"HIPRO") (status u c start stop maxEntries mark s).1 := by
  unfold status
  obtain ⟨S, hS, hk⟩ := init_log u s
  generalize init u s = X at hS
  obtain ⟨q, t⟩ := X
  simp only at hS
  cases q with
  | err => exact ⟨S, hS, .inr (.inl ⟨jobs_nil hk, by simp⟩)⟩
  | panic => exact ⟨S, hS, .inr (.inl ⟨jobs_nil hk, by simp⟩)⟩
  | ok x =>
    simp only
    cases hq : (newBuilder t.st.d.supportedSegments).status start stop maxEntries mark with
    | err => exact ⟨S, hS, .inr (.inl ⟨jobs_nil hk, by simp⟩)⟩
    | panic => exact ⟨S, hS, .inr (.inl ⟨jobs_nil hk, by simp⟩)⟩
    | ok q =>
      obtain ⟨log, h1, h2⟩ := ask_cases u (jobOf c q) t
      have hj : ∀ l, jobs log = l → (S ++ log).filter (fun e => e.kind = .job) = l := by
        intro l hl
        have := jobs_append S log
        rw [jobs_nil hk, hl] at this
        exact this
      refine ⟨S ++ log, by rw [h1, hS, List.append_assoc], ?_⟩
      simp only
      rcases h2 with ⟨h2, h3⟩ | ⟨e, v, n, id, h2, h3, ⟨m, h4, h5, h6⟩ | ⟨h4, h5⟩⟩
      · refine .inr (.inl ⟨hj _ h2, ?_⟩)
        intro xs hx
        obtain ⟨m, hm, _⟩ := Dialog.bind_ok hx
        exact h3 m hm
      · have ha := status_asks hq (logged_requests h3)
        rw [h4]
        simp only [Outcome.bind]
        cases hr : collect (viewOf u.views.status) (m.segments c!"HIPRO") with
        | ok xs => exact .inl ⟨e, m, xs, hj _ h2, ha, h5, h6, (views_of_iff _ _ _ _).1 hr, rfl⟩
        | err =>
          refine .inr (.inr ⟨e, hj _ h2, ha, by simp, fun m' hm' _ => .inr fun xs hx => ?_⟩)
          rw [h5] at hm'
          cases hm'
          rw [← views_of_iff, hr] at hx
          simp at hx
        | panic =>
          refine .inr (.inr ⟨e, hj _ h2, ha, by simp, fun m' hm' _ => .inr fun xs hx => ?_⟩)
          rw [h5] at hm'
          cases hm'
          rw [← views_of_iff, hr] at hx
          simp at hx
      · refine .inr (.inr ⟨e, hj _ h2, status_asks hq (logged_requests h3), ?_, fun m hm ha => .inl ?_⟩)
        · intro xs hx
          obtain ⟨m, hm, _⟩ := Dialog.bind_ok hx
          exact h4 m hm
        · obtain ⟨f, f1, f2⟩ := h5 m hm ha
          exact ⟨f, by rw [List.getLast?_append, f1]; rfl, f2⟩

/-- A bank that knows the segments for balances and status, and answers with `rest`. -/
def answering (acks rest : Bytes) : Nat → Outcome Body := fun n =>
  if n = 2 then Dialog.Sample.reply b!"dia" acks rest else Dialog.Sample.reply b!"dia" b!"0010::ok" []

/-- The state of a client of such a bank. -/
def offering (answer : Nat → Outcome Body) : CSt Bytes Bytes :=
  let s := Sample.known answer
  { s with st := { s.st with d := { s.st.d with supportedSegments := [(c!"HISALS", 6), (c!"HIPRO", 4)] } } }

/-- Two balances; an answer without balances; one that reports an error. -/
theorem balance_answers :
    (accountBalances (Sample.setup (answering b!"0010::ok" b!"HISAL:3:6+a'HISAL:4:6+b'") fun n => n) .fints300 Sample.account
      true (offering (answering b!"0010::ok" b!"HISAL:3:6+a'HISAL:4:6+b'"))).1 = .ok [b!"HISAL:3:6+a'", b!"HISAL:4:6+b'"] ∧
    (accountBalances (Sample.setup (answering b!"0010::ok" []) fun n => n) .fints300 Sample.account
      true (offering (answering b!"0010::ok" []))).1 = .err ∧
    (accountBalances (Sample.setup (answering b!"9010::no" b!"HISAL:3:6+a'") fun n => n) .fints300 Sample.account
      true (offering (answering b!"9010::no" b!"HISAL:3:6+a'"))).1 = .err := by
  decide +kernel

theorem status_answers :
    (status (Sample.setup (answering b!"3040::mehr:r" b!"HIPRO:3:4+a'HIPRO:4:4+b'") fun n => n) .fints300
      ⟨2020, 1, 1, 0, 0, 0, 0⟩ ⟨2020, 1, 2, 0, 0, 0, 0⟩ 10 []
      (offering (answering b!"3040::mehr:r" b!"HIPRO:3:4+a'HIPRO:4:4+b'"))).1 = .ok [b!"HIPRO:3:4+a'", b!"HIPRO:4:4+b'"] ∧
    (status (Sample.setup (answering b!"0010::ok" []) fun n => n) .fints300
      ⟨2020, 1, 1, 0, 0, 0, 0⟩ ⟨2020, 1, 2, 0, 0, 0, 0⟩ 10 [] (offering (answering b!"0010::ok" []))).1 = .ok [] := by
  decide +kernel

example : (accountBalances (Sample.setup (answering b!"0010::ok" []) fun n => n) .fints300 Sample.account
    true (offering (answering b!"0010::ok" []))).1 = .err := balance_answers.2.1

/-- A call that is answered without balances. -/
def emptyAnswer : Outcome (List Bytes) × CSt Bytes Bytes :=
  accountBalances (Sample.setup (answering b!"0010::ok" []) fun n => n) .fints300 Sample.account true
    (offering (answering b!"0010::ok" []))

/-- The case of `C81_no_balance`: the one request is answered without error and without balances,
and the dialog ends well. -/
example : (emptyAnswer.2.st.sent.filter (fun e => e.kind = .job)).map (fun e => match e.reply with
      | .ok m => decide (∀ a ∈ m.acknowledgements, a.code < 9000) && (m.segments c!"HISAL").isEmpty
      | _ => false) = [true] ∧
    (emptyAnswer.2.st.sent.getLast?.map fun f => match f.reply with
      | .panic => true
      | _ => false) = some false := by
  decide +kernel

example : (status (Sample.setup (answering b!"0010::ok" []) fun n => n) .fints300
    ⟨2020, 1, 1, 0, 0, 0, 0⟩ ⟨2020, 1, 2, 0, 0, 0, 0⟩ 10 [] (offering (answering b!"0010::ok" []))).1 = .ok [] :=
  status_answers.2

/-! ## Balances by IBAN, page by page -/

theorem final_not_continues {m : Decrypted σ} {r : Str} (h1 : Final m) (h2 : Continues m r) : False := by
  obtain ⟨hr, more, hm⟩ := h2
  rcases h1 with h1 | ⟨more', h1⟩
  · exact not_marked hm h1
  · have := Marked.unique hm h1
    simp only [List.cons.injEq] at this
    exact hr this.1

theorem Continues.unique {m : Decrypted σ} {r q : Str} (h1 : Continues m r) (h2 : Continues m q) : r = q := by
  obtain ⟨_, _, h1⟩ := h1
  obtain ⟨_, _, h2⟩ := h2
  have := Marked.unique h1 h2
  simp only [List.cons.injEq] at this
  exact this.1

/-- The balances of an answer: there is at least one. -/
def HoldsSepa (u : Setup σ α β γ δ) (m : Decrypted σ) (xs : List γ) : Prop :=
  Views u.views.sepaBalance c!"HISAL" m xs ∧ xs ≠ []

/-- What one page of balances leaves. -/
theorem balancePage_cases (u : Setup σ α β γ δ) (c : Client) (account : InternationalConnection) (all : Bool) (mark : Str)
    (s : CSt σ α) :
    ∃ log, (balancePage u c account all mark s).2.st.sent = s.st.sent ++ log ∧
      ((jobs log = [] ∧ ∀ x, (balancePage u c account all mark s).1 ≠ .ok x) ∨
       ∃ e, jobs log = [e] ∧ AsksSepa account all mark e ∧
        ((∃ m xs r, (balancePage u c account all mark s).1 = .ok (xs, r) ∧ e.reply = .ok m ∧ Accepted m ∧ HoldsSepa u m xs ∧
            continuation m = .ok r) ∨
         ((∀ x, (balancePage u c account all mark s).1 ≠ .ok x) ∧
          ∀ m, e.reply = .ok m → Accepted m → EndCrashed log ∨ ∀ xs, HoldsSepa u m xs → ∀ r, continuation m ≠ .ok r))) := by
  unfold balancePage
  obtain ⟨S, hS, hk⟩ := init_log u s
  generalize init u s = X at hS
  obtain ⟨q, t⟩ := X
  simp only at hS
  cases q with
  | err => exact ⟨S, hS, .inl ⟨jobs_nil hk, by simp⟩⟩
  | panic => exact ⟨S, hS, .inl ⟨jobs_nil hk, by simp⟩⟩
  | ok x =>
    simp only
    cases hq : (newBuilder t.st.d.supportedSegments).sepaBalance account all with
    | err => exact ⟨S, hS, .inl ⟨jobs_nil hk, by simp⟩⟩
    | panic => exact ⟨S, hS, .inl ⟨jobs_nil hk, by simp⟩⟩
    | ok q =>
      obtain ⟨log, h1, h2⟩ := ask_cases u (jobOf c (if mark = [] then q else q.setContinuationMark mark).seg) t
      have hj : jobs (S ++ log) = jobs log := by rw [jobs_append, jobs_nil hk]; rfl
      refine ⟨S ++ log, by rw [h1, hS, List.append_assoc], ?_⟩
      simp only
      rw [hj]
      rcases h2 with ⟨h2, h3⟩ | ⟨e, v, n, id, h2, h3, ⟨m, h4, h5, h6⟩ | ⟨h4, h5⟩⟩
      · refine .inl ⟨h2, ?_⟩
        intro x hx
        obtain ⟨m, hm, _⟩ := Dialog.bind_ok hx
        exact h3 m hm
      · refine .inr ⟨e, h2, sepa_asks hq (logged_requests h3), ?_⟩
        rw [h4]
        simp only [Outcome.bind]
        have hno : ∀ X : Outcome (List γ), readBalances u.views.sepaBalance m = X → (∀ xs, X ≠ .ok xs) →
            ∀ m', e.reply = .ok m' → ∀ xs, ¬ HoldsSepa u m' xs := by
          intro X hX hne m' hm' xs hx
          rw [h5] at hm'
          cases hm'
          exact hne xs (hX ▸ (readBalances_iff _ _ _).2 hx)
        cases hr : readBalances u.views.sepaBalance m with
        | err => exact .inr ⟨by simp, fun m' hm' _ => .inr fun xs hx => absurd hx (hno _ hr (by simp) m' hm' xs)⟩
        | panic => exact .inr ⟨by simp, fun m' hm' _ => .inr fun xs hx => absurd hx (hno _ hr (by simp) m' hm' xs)⟩
        | ok xs =>
          cases hc : continuation m with
          | ok r => exact .inl ⟨m, xs, r, rfl, h5, h6, (readBalances_iff _ _ _).1 hr, hc⟩
          | err =>
            refine .inr ⟨by simp, fun m' hm' _ => .inr fun _ _ r => ?_⟩
            rw [h5] at hm'
            cases hm'
            rw [hc]
            simp
          | panic =>
            refine .inr ⟨by simp, fun m' hm' _ => .inr fun _ _ r => ?_⟩
            rw [h5] at hm'
            cases hm'
            rw [hc]
            simp
      · refine .inr ⟨e, h2, sepa_asks hq (logged_requests h3), .inr ⟨?_, fun m hm ha => .inl ?_⟩⟩
        · intro x hx
          obtain ⟨m, hm, _⟩ := Dialog.bind_ok hx
          exact h4 m hm
        · obtain ⟨f, f1, f2⟩ := h5 m hm ha
          exact ⟨f, by rw [List.getLast?_append, f1]; rfl, f2⟩

theorem continuation_of_final {m : Decrypted σ} (h : Final m) : continuation m = .ok [] := by
  rcases continuation_cases m with ⟨_, hc⟩ | ⟨hm, hc⟩ | ⟨p, ps, hm, hc⟩
  · exact hc
  · rcases h with h | ⟨more, h⟩
    · exact absurd h (not_marked hm)
    · have := Marked.unique hm h
      simp at this
  · rcases h with h | ⟨more, h⟩
    · exact absurd h (not_marked hm)
    · have := Marked.unique hm h
      simp only [List.cons.injEq] at this
      rw [hc, this.1]

theorem continuation_of_continues {m : Decrypted σ} {r : Str} (h : Continues m r) : continuation m = .ok r := by
  obtain ⟨_, more, h⟩ := h
  rcases continuation_cases m with ⟨hn, _⟩ | ⟨hm, _⟩ | ⟨p, ps, hm, hc⟩
  · exact absurd hn (not_marked h)
  · have := Marked.unique hm h
    simp at this
  · have := Marked.unique hm h
    simp only [List.cons.injEq] at this
    rw [hc, this.1]

/-- C80: what SepaAccountBalances returns is decided by the requests it sent and their answers.
If it returns balances, these requests are those for all pages, and the balances are those of the
pages, one after the other.  If it does not, they are not a complete sequence of answered
requests.  (The exception is an answer to the last dialog end that crashes the dialog.) -/
theorem C80_pages (u : Setup σ α β γ δ) (c : Client) (account : InternationalConnection) (all : Bool) :
    ∀ (fuel : Nat) (mark : Str) (s t : CSt σ α) (r : Outcome (List γ)),
      sepaAccountBalances u c account all fuel mark s = some (r, t) →
      ∃ log, t.st.sent = s.st.sent ++ log ∧
        (∀ xs, r = .ok xs → ∃ ps, log.filter (fun e => e.kind = .job) = ps.map Prod.fst ∧
          Pages (AsksSepa account all) (HoldsSepa u) mark ps ∧ xs = ps.flatMap Prod.snd) ∧
        (∀ ps, log.filter (fun e => e.kind = .job) = ps.map Prod.fst →
          Pages (AsksSepa account all) (HoldsSepa u) mark ps → ¬ EndCrashed log → r = .ok (ps.flatMap Prod.snd)) := by
  intro fuel
  induction fuel with
  | zero => intro mark s t r h; simp [sepaAccountBalances] at h
  | succ fuel ih =>
    intro mark s t r h
    rw [sepaAccountBalances] at h
    obtain ⟨log, hlog, hcases⟩ := balancePage_cases u c account all mark s
    generalize balancePage u c account all mark s = X at h hlog hcases
    obtain ⟨q, t1⟩ := X
    simp only at hlog hcases
    have bad : ∀ ps : List (Sent σ × List γ), (∀ x, q ≠ .ok x) → jobs log = ps.map Prod.fst →
        Pages (AsksSepa account all) (HoldsSepa u) mark ps → EndCrashed log := by
      intro ps hq hp hP
      rcases hcases with ⟨h1, _⟩ | ⟨e, h1, h2, ⟨m, xs, r', h3, _⟩ | ⟨_, h4⟩⟩
      · rw [h1] at hp
        cases hP <;> simp at hp
      · exact absurd h3 (hq _)
      · rw [h1] at hp
        cases hP with
        | last k1 k2 k3 k4 k5 =>
          simp only [List.map_cons, List.map_nil, List.cons.injEq, and_true] at hp
          subst hp
          rcases h4 _ k2 k3 with h | h
          · exact h
          · exact absurd (continuation_of_final k5) (h _ k4 _)
        | more k1 k2 k3 k4 k5 k6 =>
          simp only [List.map_cons, List.cons.injEq] at hp
          obtain ⟨rfl, hp⟩ := hp
          rcases h4 _ k2 k3 with h | h
          · exact h
          · exact absurd (continuation_of_continues k5) (h _ k4 _)
    cases q with
    | err =>
      simp only [Option.some.injEq, Prod.mk.injEq] at h
      obtain ⟨rfl, rfl⟩ := h
      exact ⟨log, hlog, by simp, fun ps hp hP hc => absurd (bad ps (by simp) hp hP) hc⟩
    | panic =>
      simp only [Option.some.injEq, Prod.mk.injEq] at h
      obtain ⟨rfl, rfl⟩ := h
      exact ⟨log, hlog, by simp, fun ps hp hP hc => absurd (bad ps (by simp) hp hP) hc⟩
    | ok x =>
      obtain ⟨bs, next⟩ := x
      clear bad
      rcases hcases with ⟨_, h1⟩ | ⟨e, h1, h2, ⟨m, xs, r', h3, h4, h5, h6, h7⟩ | ⟨h3, _⟩⟩
      · exact absurd rfl (h1 _)
      · simp only [Outcome.ok.injEq, Prod.mk.injEq] at h3
        obtain ⟨rfl, rfl⟩ := h3
        obtain ⟨m1, m2⟩ := marks_of_continuation h7
        simp only at h
        split at h
        · rename_i hn
          simp only [Option.some.injEq, Prod.mk.injEq] at h
          obtain ⟨rfl, rfl⟩ := h
          refine ⟨log, hlog, ?_, ?_⟩
          · intro ys hy
            simp only [Outcome.ok.injEq] at hy
            subst hy
            exact ⟨[(e, bs)], h1, .last h2 h4 h5 h6 (m1 hn), by simp⟩
          · intro ps hp hP _
            change jobs log = _ at hp
            rw [h1] at hp
            cases hP with
            | last k1 k2 k3 k4 k5 =>
              simp only [List.map_cons, List.map_nil, List.cons.injEq, and_true] at hp
              subst hp
              rw [h4] at k2
              cases k2
              rw [Views.unique h6.1 k4.1]
              simp
            | more k1 k2 k3 k4 k5 k6 =>
              simp only [List.map_cons, List.cons.injEq] at hp
              obtain ⟨rfl, hp⟩ := hp
              cases k6 <;> simp at hp
        · rename_i hn
          simp only [Option.map_eq_some_iff] at h
          obtain ⟨⟨r2, t2⟩, hr, h⟩ := h
          simp only [Prod.mk.injEq] at h
          obtain ⟨rfl, rfl⟩ := h
          obtain ⟨log2, l1, l2, l3⟩ := ih next t1 t2 r2 hr
          have hj : (log ++ log2).filter (fun e => e.kind = .job) = e :: log2.filter (fun e => e.kind = .job) := by
            have := jobs_append log log2
            rw [h1] at this
            exact this
          refine ⟨log ++ log2, by rw [l1, hlog, List.append_assoc], ?_, ?_⟩
          · intro ys hy
            obtain ⟨zs, hz, rfl⟩ := map_ok hy
            obtain ⟨ps, p1, p2, p3⟩ := l2 zs hz
            exact ⟨(e, bs) :: ps, by rw [hj, p1]; rfl, .more h2 h4 h5 h6 (m2 hn) p2, by simp [p3]⟩
          · intro ps hp hP hc
            rw [hj] at hp
            have hend : ¬ EndCrashed log2 := by
              rintro ⟨f, f1, f2⟩
              exact hc ⟨f, by rw [List.getLast?_append, f1]; rfl, f2⟩
            cases hP with
            | last k1 k2 k3 k4 k5 =>
              simp only [List.map_cons, List.map_nil, List.cons.injEq] at hp
              obtain ⟨rfl, hp⟩ := hp
              rw [h4] at k2
              cases k2
              exact (final_not_continues k5 (m2 hn)).elim
            | more k1 k2 k3 k4 k5 k6 =>
              simp only [List.map_cons, List.cons.injEq] at hp
              obtain ⟨rfl, hp⟩ := hp
              rw [h4] at k2
              cases k2
              have := Continues.unique k5 (m2 hn)
              subst this
              rw [l3 _ hp k6 hend, Views.unique h6.1 k4.1]
              simp
      · exact absurd rfl (h3 _)

/-- A bank with two pages of balances. -/
def balancePages : Nat → Outcome Body := fun n =>
  if n = 2 then Dialog.Sample.reply b!"dia" b!"3040::mehr:ref1" b!"HISAL:3:7+a'HISAL:4:7+b'"
  else if n = 5 then Dialog.Sample.reply b!"dia" b!"0020::ok" b!"HISAL:3:7+c'"
  else Dialog.Sample.reply b!"dia" b!"0010::ok" []

/-- The balances, and the kinds of the messages sent. -/
def balancesOf (answer : Nat → Outcome Body) (fuel : Nat) : Option (Outcome (List Bytes) × List Kind) :=
  (sepaAccountBalances (Sample.setup answer fun n => n) .fints300 ⟨c!"DE1", c!"BIC", c!"100", [], 280, c!"10000000"⟩ false
    fuel [] (Sample.known answer)).map fun r => (r.1, r.2.st.sent.map Sent.kind)

theorem two_balance_pages : balancesOf balancePages 2 =
    some (.ok [b!"HISAL:3:7+a'", b!"HISAL:4:7+b'", b!"HISAL:3:7+c'"], [.init, .job, .end_, .init, .job, .end_]) := by
  decide +kernel

example : balancesOf balancePages 2 =
    some (.ok [b!"HISAL:3:7+a'", b!"HISAL:4:7+b'", b!"HISAL:3:7+c'"], [.init, .job, .end_, .init, .job, .end_]) :=
  two_balance_pages

end Verif.Client

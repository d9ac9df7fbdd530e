import Verif.Client.Sample
import Mathlib.Order.Monotone.Basic

/-
C35: fetching transactions page by page.
-/

namespace Verif.Client

open GoLib Element Element.Spec Segment Message Domain Transport Dialog Time

variable {σ α β γ δ : Type}

/-! ## Specification -/

/-- The statements in an answer: the data of its HIKAZ segments, in their order. -/
def Holds (u : Setup σ α β γ δ) (m : Decrypted σ) (statements : List Bytes) : Prop :=
  List.Forall₂ (fun x b => ∃ y, x = .other y ∧ u.views.statement y = .ok b) (m.segments c!"HIKAZ") statements

/-- The answer asks to continue with the reference `r`. -/
def Continues (m : Decrypted σ) (r : Str) : Prop := r ≠ [] ∧ ∃ more, Marked m (r :: more)

/-- The answer is the last one: there is no acknowledgement 3040, or the first one has an empty
reference. -/
def Final (m : Decrypted σ) : Prop := (∀ a ∈ m.acknowledgements, a.code ≠ 3040) ∨ ∃ more, Marked m ([] :: more)

/-- A request for the transactions of an account, with a continuation reference unless it is
empty, for the time frame as far as it has dates. -/
def Asks (today : Nat → Time.Civil) (account : AccountConnection) (all : Bool) (tf : Timeframe) (mark : Str) (e : Sent σ) : Prop :=
  e.kind = .job ∧ ∃ (version : Int) (start stop : Time.Civil) (k : Nat), (version = 5 ∨ version = 6) ∧
    (¬ isZero tf.startDate → start = tf.startDate) ∧ (¬ isZero tf.endDate → stop = tf.endDate) ∧
    (isZero tf.startDate → start = newShortDate (monthBefore (today k))) ∧
    (isZero tf.endDate → stop = ⟨(today k).year, (today k).month, (today k).day, 0, 0, 0, 0⟩) ∧
    bodies (e.plain.content.getD []) =
      [(c!"HKTAN", 6, [some (.alnum c!"4" 1), some (.alnum c!"HKIDN" 6), none, none, none, none, none]),
       (c!"HKKAZ", version, [some (accountConnectionDE account), some (.boolean all), some (.date start), some (.date stop),
         none, if mark = [] then none else some (.alnum mark (strLen mark))])]

/-- A page: the request for it and the statements in the answer. -/
structure Fetched (σ : Type) where
  request : Sent σ
  statements : List Bytes

/-- The page was requested with the continuation reference `mark` and answered by `m`. -/
structure Good (u : Setup σ α β γ δ) (account : AccountConnection) (all : Bool) (tf : Timeframe) (mark : Str)
    (p : Fetched σ) (m : Decrypted σ) : Prop where
  asks : Asks u.today account all tf mark p.request
  reply : p.request.reply = .ok m
  accepted : Accepted m
  statements : Holds u m p.statements

/-- Pages fetched one after the other, each with the reference the previous one ended with;
the reference of the last one is `next`. -/
inductive Chain (u : Setup σ α β γ δ) (account : AccountConnection) (all : Bool) (tf : Timeframe) :
    (mark : Str) → List (Fetched σ) → (next : Str) → Prop where
  | nil (mark : Str) : Chain u account all tf mark [] mark
  | cons {mark r next : Str} {p : Fetched σ} {m : Decrypted σ} {ps : List (Fetched σ)} :
      Good u account all tf mark p m → Continues m r → Chain u account all tf r ps next →
      Chain u account all tf mark (p :: ps) next

/-- All pages there are. -/
def Complete (u : Setup σ α β γ δ) (account : AccountConnection) (all : Bool) (tf : Timeframe) (mark : Str)
    (ps : List (Fetched σ)) : Prop :=
  ∃ before last m r, ps = before ++ [last] ∧ Chain u account all tf mark before r ∧ Good u account all tf r last m ∧ Final m

/-- The statements of pages. -/
def statementsOf (ps : List (Fetched σ)) : List Bytes := ps.flatMap Fetched.statements

/-! ## One page -/

theorem holds_iff (u : Setup σ α β γ δ) (m : Decrypted σ) (bs : List Bytes) :
    collect (viewChecked u.views.statement) (m.segments c!"HIKAZ") = .ok bs ↔ Holds u m bs := by
  rw [collect_ok]
  unfold Holds
  have : (fun (x : Decoded σ) b => viewChecked u.views.statement x = .ok b) =
      fun x b => ∃ y, x = .other y ∧ u.views.statement y = .ok b := by
    funext x b
    cases x <;> simp [viewChecked]
  rw [this]

theorem request_asks {w : World σ α} {u : Setup σ α β γ δ} {c : Client} {account : AccountConnection} {all : Bool}
    {tf : Timeframe} {mark : Str} {s : CSt σ α} {q : Seg} {g : Sent σ} {v n : Int} {id : Str}
    (hq : transactionRequest u (plainBuilder account all) tf mark s = .ok q)
    (hg : Logged w g .job v n id (jobOf c q).segments) : Asks u.today account all tf mark g := by
  unfold transactionRequest plainBuilder Builder.transactions at hq
  obtain ⟨r, hr, rfl⟩ := map_ok hq
  obtain ⟨f, hf, rfl⟩ := map_ok hr
  refine ⟨hg.kind, ?_⟩
  rw [hg.body]
  have hv : ∃ version, (version = 5 ∨ version = 6) ∧ f = newTransactionRequest version := by
    unfold Builder.choose at hf
    split at hf
    · simp at hf
    · unfold transactionBuilder firstImplemented at hf
      rename_i versions _
      cases hx : (descending versions).findSome? transactionTable with
      | none => rw [hx] at hf; simp at hf
      | some g =>
        rw [hx] at hf
        simp only [Outcome.ofOption, Outcome.ok.injEq] at hf
        obtain ⟨x, _, hx⟩ := List.exists_of_findSome?_eq_some hx
        unfold transactionTable at hx
        split at hx
        · simp only [Option.some.injEq] at hx
          exact ⟨6, .inr rfl, by rw [← hf, ← hx]⟩
        · simp only [Option.some.injEq] at hx
          exact ⟨5, .inl rfl, by rw [← hf, ← hx]⟩
        · simp at hx
  obtain ⟨version, h1, rfl⟩ := hv
  refine ⟨version, if isZero tf.startDate then newShortDate (monthBefore (u.today s.ticks)) else tf.startDate,
    if isZero tf.endDate then newShortDate (u.today s.ticks) else tf.endDate, s.ticks, h1, fun h => if_neg h, fun h => if_neg h,
    fun h => if_pos h, fun h => if_pos h, ?_⟩
  by_cases hm : mark = []
  · simp only [if_pos hm]
    rfl
  · simp only [if_neg hm]
    rfl

/-- What a page leaves: a log with at most one request. -/
theorem page_cases (u : Setup σ α β γ δ) (c : Client) (account : AccountConnection) (all : Bool) (tf : Timeframe) (mark : Str)
    (s : CSt σ α) :
    ∃ log, (page u c (plainBuilder account all) tf mark s).2.st.sent = s.st.sent ++ log ∧
      s.ticks ≤ (page u c (plainBuilder account all) tf mark s).2.ticks ∧
      ((jobs log = [] ∧ ∀ x, (page u c (plainBuilder account all) tf mark s).1 ≠ .ok x) ∨
       ∃ e f before, log = before ++ [e, f] ∧ jobs log = [e] ∧ Asks u.today account all tf mark e ∧ f.kind = .end_ ∧
        ((∃ m, e.reply = .ok m ∧ Accepted m ∧ f.reply ≠ .panic ∧
            ((∃ bs k tx r, Holds u m bs ∧ continuation m = .ok r ∧ s.ticks ≤ k ∧
                (page u c (plainBuilder account all) tf mark s).1 = .ok (tx, r) ∧
                (page u c (plainBuilder account all) tf mark s).2.ticks = k + bs.length + 1 ∧
                tx = merge u.sorter (u.clock (k + bs.length)) (stamped u.clock k bs)) ∨
             ((∀ x, (page u c (plainBuilder account all) tf mark s).1 ≠ .ok x) ∧
              ∀ bs, Holds u m bs → Marked m [] ∧ (page u c (plainBuilder account all) tf mark s).1 = .panic))) ∨
         ((∀ x, (page u c (plainBuilder account all) tf mark s).1 ≠ .ok x) ∧
          ∀ m, e.reply = .ok m → Accepted m → f.reply = .panic))) := by
  unfold page
  cases hq : transactionRequest u (plainBuilder account all) tf mark s with
  | err => exact ⟨[], by simp, Nat.le_refl _, .inl ⟨rfl, by simp⟩⟩
  | panic => exact ⟨[], by simp, Nat.le_refl _, .inl ⟨rfl, by simp⟩⟩
  | ok q =>
    obtain ⟨log, hlog, hres⟩ := send_cases u.world (jobOf c q) s.st
    unfold send
    simp only
    generalize sendMessage u.world (jobOf c q) s.st = X at hlog hres
    obtain ⟨r, t⟩ := X
    simp only at hlog hres
    refine ⟨log, ?_, ?_, ?_⟩
    · cases r with
      | err => exact hlog
      | panic => exact hlog
      | ok m =>
        simp only [readPage]
        split
        · exact hlog
        · exact hlog
        · split <;> exact hlog
    · cases r with
      | err => simp
      | panic => simp
      | ok m =>
        simp only [readPage]
        split
        · simp
        · simp
        · split
          · simp
          · simp
          · simp only; omega
    · rcases hres with ⟨h1, h2⟩ | ⟨pre, g, f, v, n, id, h1, h2, h3, h4, h5⟩
      · refine .inl ⟨jobs_nil h1, ?_⟩
        cases r with
        | err => simp
        | panic => simp
        | ok m => exact absurd rfl (h2 m)
      · refine .inr ⟨g, f, pre, h1, ?_, request_asks hq h3, h4, ?_⟩
        · rw [h1, jobs_append, jobs_nil h2]
          simp [jobs, h3.kind, h4]
        · cases r with
          | err =>
            refine .inr ⟨by simp, ?_⟩
            intro m hm ha
            by_contra hf
            have := (h5 m).2 ⟨hf, hm, ha⟩
            simp at this
          | panic =>
            refine .inr ⟨by simp, ?_⟩
            intro m hm ha
            by_contra hf
            have := (h5 m).2 ⟨hf, hm, ha⟩
            simp at this
          | ok m =>
            obtain ⟨k1, k2, k3⟩ := (h5 m).1 rfl
            refine .inl ⟨m, k2, k3, k1, ?_⟩
            simp only [readPage]
            cases hb : collect (viewChecked u.views.statement) (m.segments c!"HIKAZ") with
            | err =>
              refine .inr ⟨by simp, fun bs hbs => ?_⟩
              rw [← holds_iff, hb] at hbs
              simp at hbs
            | panic =>
              refine .inr ⟨by simp, fun bs hbs => ?_⟩
              rw [← holds_iff, hb] at hbs
              simp at hbs
            | ok bs =>
              rcases continuation_cases m with ⟨_, hc⟩ | ⟨hm, hc⟩ | ⟨p, ps, hm, hc⟩
              · refine .inl ⟨bs, s.ticks + 1, merge u.sorter (u.clock (s.ticks + 1 + bs.length)) (stamped u.clock (s.ticks + 1) bs), [], (holds_iff u m bs).1 hb, hc, by omega, ?_⟩
                rw [hc]
                exact ⟨rfl, rfl, rfl⟩
              · refine .inr ⟨by simp [hc], fun _ _ => ⟨hm, by simp [hc]⟩⟩
              · refine .inl ⟨bs, s.ticks + 1, merge u.sorter (u.clock (s.ticks + 1 + bs.length)) (stamped u.clock (s.ticks + 1) bs), p, (holds_iff u m bs).1 hb, hc, by omega, ?_⟩
                rw [hc]
                exact ⟨rfl, rfl, rfl⟩

/-! ## Time stamps -/

theorem stamped_data (clock : Nat → Int) : ∀ (n : Nat) (bs : List Bytes), (stamped clock n bs).map Page.data = bs
  | _, [] => rfl
  | n, b :: bs => by rw [stamped, List.map_cons, stamped_data clock (n + 1) bs]

theorem stamped_mem {clock : Nat → Int} {p : Page} : ∀ {n : Nat} {bs : List Bytes}, p ∈ stamped clock n bs →
    ∃ k, n ≤ k ∧ p.stamp = clock k
  | _, [], h => by simp [stamped] at h
  | n, b :: bs, h => by
    rw [stamped, List.mem_cons] at h
    rcases h with rfl | h
    · exact ⟨n, Nat.le_refl _, rfl⟩
    · obtain ⟨k, h1, h2⟩ := stamped_mem h
      exact ⟨k, by omega, h2⟩

theorem stamped_increasing {clock : Nat → Int} (h : StrictMono clock) : ∀ (n : Nat) (bs : List Bytes),
    Increasing (stamped clock n bs)
  | _, [] => .nil
  | n, b :: bs => by
    unfold Increasing
    rw [stamped, List.pairwise_cons]
    refine ⟨?_, stamped_increasing h (n + 1) bs⟩
    intro p hp
    obtain ⟨k, h1, h2⟩ := stamped_mem hp
    rw [h2]
    exact h (by omega)

/-- The data of a page in the order given by the clock. -/
def Assembled (u : Setup σ α β γ δ) (ps : List (Fetched σ)) (data : Bytes) : Prop :=
  (∃ order : List Bytes, order.Perm (statementsOf ps) ∧ data = order.flatten) ∧
  (StrictMono u.clock → data = (statementsOf ps).flatten) ∧
  ((∀ i j, u.clock i = u.clock j) → (∀ p ∈ ps, p.statements.length ≤ 12) → data = (statementsOf ps.reverse).flatten)

theorem assembled_one (u : Setup σ α β γ δ) (p : Fetched σ) (now : Int) (k : Nat) :
    Assembled u [p] (merge u.sorter now (stamped u.clock k p.statements)).data := by
  refine ⟨?_, ?_, ?_⟩
  · obtain ⟨qs, h1, _, h3⟩ := C36_sorted u.sorter now (stamped u.clock k p.statements)
    refine ⟨qs.map Page.data, ?_, h3⟩
    have := h1.map Page.data
    rw [stamped_data] at this
    simpa [statementsOf] using this
  · intro h
    rw [C36_order u.sorter now (.refl _) (stamped_increasing h _ _), stamped_data]
    simp [statementsOf]
  · intro h hlen
    obtain ⟨qs, h1, _, h3, h4⟩ := C36_ties u.sorter now (stamped u.clock k p.statements) (by
      have := congrArg List.length (stamped_data u.clock k p.statements)
      rw [List.length_map] at this
      rw [this]
      exact hlen p (by simp))
    have all : ∀ q ∈ stamped u.clock k p.statements, q.stamp = u.clock 0 := by
      intro q hq
      obtain ⟨i, _, hi⟩ := stamped_mem hq
      rw [hi]
      exact h i 0
    have e := h3 (u.clock 0)
    rw [List.filter_eq_self.2 (by simpa using fun q hq => all q (h1.mem_iff.1 hq)),
      List.filter_eq_self.2 (by simpa using all)] at e
    rw [h4, e, stamped_data]
    simp [statementsOf]

theorem assembled_cons {u : Setup σ α β γ δ} {p : Fetched σ} {ps : List (Fetched σ)} {k i : Nat} {msg : Page} (now : Int)
    (hmsg : Assembled u ps msg.data) (hi : msg.stamp = u.clock i) (hk : k + p.statements.length < i) :
    Assembled u (p :: ps) (merge u.sorter now
      [msg, merge u.sorter (u.clock (k + p.statements.length)) (stamped u.clock k p.statements)]).data := by
  obtain ⟨⟨o1, a1, a2⟩, a3, a4⟩ := hmsg
  obtain ⟨⟨o2, b1, b2⟩, b3, b4⟩ := assembled_one u p (u.clock (k + p.statements.length)) k
  have hs : ∀ (p : Fetched σ) (ps : List (Fetched σ)), statementsOf (p :: ps) = statementsOf [p] ++ statementsOf ps := by
    intro p ps
    simp [statementsOf]
  refine ⟨?_, ?_, ?_⟩
  · rw [hs]
    generalize hx : merge u.sorter (u.clock (k + p.statements.length)) (stamped u.clock k p.statements) = tx at *
    have : (merge u.sorter now [msg, tx]).data = msg.data ++ tx.data ∨ (merge u.sorter now [msg, tx]).data = tx.data ++ msg.data := by
      simp only [merge, u.sorter.short [msg, tx] (by simp), List.foldr_cons, List.foldr_nil, insert]
      split
      · left; simp
      · right; simp
    rcases this with h2 | h2
    all_goals rw [h2, a2, b2]
    · exact ⟨o1 ++ o2, (List.Perm.append a1 b1).trans List.perm_append_comm, by simp⟩
    · exact ⟨o2 ++ o1, List.Perm.append b1 a1, by simp⟩
  · intro h
    rw [C36_order u.sorter now (received := [merge u.sorter (u.clock (k + p.statements.length))
      (stamped u.clock k p.statements), msg]) (.swap _ _ _)]
    · simp only [List.map_cons, List.map_nil]
      rw [a3 h, b3 h, hs p ps]
      simp
    · unfold Increasing
      rw [List.pairwise_pair, hi]
      exact h hk
  · intro h hlen
    rw [C36_same_time]
    · rw [a4 h fun q hq => hlen q (List.mem_cons_of_mem _ hq), b4 h fun q hq => hlen q (by
        rw [List.mem_singleton] at hq
        rw [hq]
        simp)]
      simp [statementsOf]
    · rw [hi]
      exact h _ _

/-! ## All pages -/

theorem marks_of_continuation {m : Decrypted σ} {r : Str} (h : continuation m = .ok r) :
    (r = [] → Final m) ∧ (r ≠ [] → Continues m r) := by
  rcases continuation_cases m with ⟨h1, hc⟩ | ⟨_, hc⟩ | ⟨p, ps, hm, hc⟩
  · rw [hc] at h
    simp only [Outcome.ok.injEq] at h
    exact ⟨fun _ => .inl h1, fun hn => absurd h.symm hn⟩
  · rw [hc] at h
    simp at h
  · rw [hc] at h
    simp only [Outcome.ok.injEq] at h
    subst h
    exact ⟨fun h => .inr ⟨ps, by rw [← h]; exact hm⟩, fun hn => ⟨hn, ps, hm⟩⟩

/-- A page that was not read: the request was not answered, or the answer has an error, or its
statements cannot be read, or the reference is missing, or the answer to the dialog end
crashed. -/
def Failed {ε : Type} (u : Setup σ α β γ δ) (r : Outcome ε) (log : List (Sent σ)) (e : Sent σ) : Prop :=
  ∀ m, e.reply = .ok m → Accepted m → (∃ f, log.getLast? = some f ∧ f.kind = .end_ ∧ f.reply = .panic) ∨
    ∀ bs, Holds u m bs → Marked m [] ∧ r = .panic

/-- What fetching all pages leaves. -/
theorem pages_cases (u : Setup σ α β γ δ) (c : Client) (account : AccountConnection) (all : Bool) (tf : Timeframe) :
    ∀ (fuel : Nat) (mark : Str) (s t : CSt σ α) (r : Outcome Page),
      accountTransactions u c (plainBuilder account all) tf fuel mark s = some (r, t) →
      ∃ log, t.st.sent = s.st.sent ++ log ∧ s.ticks ≤ t.ticks ∧
        ((∃ tx ps i, r = .ok tx ∧ jobs log = ps.map Fetched.request ∧ Complete u account all tf mark ps ∧
            Assembled u ps tx.data ∧ tx.stamp = u.clock i ∧ s.ticks ≤ i) ∨
         ((∀ tx, r ≠ .ok tx) ∧ ∃ ps tail next, jobs log = ps.map Fetched.request ++ tail ∧
            Chain u account all tf mark ps next ∧
            (tail = [] ∨ ∃ e, tail = [e] ∧ Asks u.today account all tf next e ∧ Failed u r log e))) := by
  intro fuel
  induction fuel with
  | zero => intro mark s t r h; simp [accountTransactions] at h
  | succ fuel ih =>
    intro mark s t r h
    rw [accountTransactions] at h
    obtain ⟨log, hlog, hticks, hcases⟩ := page_cases u c account all tf mark s
    generalize page u c (plainBuilder account all) tf mark s = X at h hlog hticks hcases
    obtain ⟨q, t1⟩ := X
    simp only at hlog hticks hcases
    have bad : ∀ r' : Outcome Page, (∀ x, q ≠ .ok x) → (q = .panic → r' = .panic) →
        ∃ ps tail next, jobs log = ps.map Fetched.request ++ tail ∧ Chain u account all tf mark ps next ∧
          (tail = [] ∨ ∃ e, tail = [e] ∧ Asks u.today account all tf next e ∧ Failed u r' log e) := by
      intro r' hq hp
      rcases hcases with ⟨h1, _⟩ | ⟨e, f, before, h1, h2, h3, h4, h5⟩
      · exact ⟨[], [], mark, h1, .nil mark, .inl rfl⟩
      · refine ⟨[], [e], mark, h2, .nil mark, .inr ⟨e, rfl, h3, ?_⟩⟩
        intro m hm ha
        rcases h5 with ⟨m', k1, k2, k3, k4 | ⟨_, k4⟩⟩ | ⟨_, k4⟩
        · obtain ⟨_, _, tx, x, _, _, _, hx, _⟩ := k4
          exact absurd hx (hq _)
        · rw [hm] at k1
          cases k1
          exact .inr fun bs hbs => ⟨(k4 bs hbs).1, hp (k4 bs hbs).2⟩
        · exact .inl ⟨f, by rw [h1]; simp, h4, k4 m hm ha⟩
    cases q with
    | err =>
      simp only [Option.some.injEq, Prod.mk.injEq] at h
      obtain ⟨rfl, rfl⟩ := h
      exact ⟨log, hlog, hticks, .inr ⟨by simp, bad _ (by simp) (by simp)⟩⟩
    | panic =>
      simp only [Option.some.injEq, Prod.mk.injEq] at h
      obtain ⟨rfl, rfl⟩ := h
      exact ⟨log, hlog, hticks, .inr ⟨by simp, bad _ (by simp) (by simp)⟩⟩
    | ok x =>
      obtain ⟨tx, next⟩ := x
      clear bad
      rcases hcases with ⟨_, h1⟩ | ⟨e, f, before, h1, h2, h3, h4, h5⟩
      · exact absurd rfl (h1 _)
      · rcases h5 with ⟨m, k1, k2, k3, k4 | ⟨k4, _⟩⟩ | ⟨k4, _⟩
        · obtain ⟨bs, k, tx', r', g1, g2, g3, g4, g5, g6⟩ := k4
          simp only [Outcome.ok.injEq, Prod.mk.injEq] at g4
          obtain ⟨rfl, rfl⟩ := g4
          have good : Good u account all tf mark ⟨e, bs⟩ m := ⟨h3, k1, k2, g1⟩
          obtain ⟨m1, m2⟩ := marks_of_continuation g2
          simp only at h
          split at h
          · rename_i hn
            simp only [Option.some.injEq, Prod.mk.injEq] at h
            obtain ⟨rfl, rfl⟩ := h
            refine ⟨log, hlog, hticks, .inl ⟨tx, [⟨e, bs⟩], k + bs.length, rfl, h2, ?_, ?_, ?_, by omega⟩⟩
            · exact ⟨[], ⟨e, bs⟩, m, mark, rfl, .nil _, good, m1 hn⟩
            · rw [g6]
              exact assembled_one u ⟨e, bs⟩ _ k
            · rw [g6]; rfl
          · rename_i hn
            cases hr : accountTransactions u c (plainBuilder account all) tf fuel next t1 with
            | none => rw [hr] at h; simp at h
            | some y =>
              obtain ⟨r2, t2⟩ := y
              obtain ⟨log2, l1, l2, l3⟩ := ih next t1 t2 r2 hr
              rw [hr] at h
              have hjobs : ∀ x, jobs log2 = x → jobs (log ++ log2) = e :: x := by
                intro x hx
                rw [jobs_append, h2, hx]
                rfl
              have failing : (∀ tx, r2 ≠ .ok tx) → ∀ r' : Outcome Page, r2 = r' →
                  ∃ ps tail nxt, jobs (log ++ log2) = ps.map Fetched.request ++ tail ∧ Chain u account all tf mark ps nxt ∧
                    (tail = [] ∨ ∃ e, tail = [e] ∧ Asks u.today account all tf nxt e ∧ Failed u r' (log ++ log2) e) := by
                intro hno r' hr'
                subst hr'
                rcases l3 with ⟨tx, _, _, hx, _⟩ | ⟨_, ps, tail, nxt, p1, p2, p3⟩
                · exact absurd hx (hno tx)
                · refine ⟨⟨e, bs⟩ :: ps, tail, nxt, hjobs _ p1, .cons good (m2 hn) p2, ?_⟩
                  rcases p3 with rfl | ⟨e', rfl, p4, p5⟩
                  · exact .inl rfl
                  · refine .inr ⟨e', rfl, p4, fun m hm ha => ?_⟩
                    rcases p5 m hm ha with ⟨f', f1, f2, f3⟩ | p6
                    · refine .inl ⟨f', ?_, f2, f3⟩
                      rw [List.getLast?_append, f1]
                      rfl
                    · exact .inr p6
              have hsent : t2.st.sent = s.st.sent ++ (log ++ log2) := by rw [l1, hlog, List.append_assoc]
              cases r2 with
              | err =>
                simp only [Option.some.injEq, Prod.mk.injEq] at h
                obtain ⟨rfl, rfl⟩ := h
                exact ⟨log ++ log2, hsent, by omega, .inr ⟨by simp, failing (by simp) _ rfl⟩⟩
              | panic =>
                simp only [Option.some.injEq, Prod.mk.injEq] at h
                obtain ⟨rfl, rfl⟩ := h
                exact ⟨log ++ log2, hsent, by omega, .inr ⟨by simp, failing (by simp) _ rfl⟩⟩
              | ok msg =>
                simp only [Option.some.injEq, Prod.mk.injEq] at h
                obtain ⟨rfl, rfl⟩ := h
                rcases l3 with ⟨msg', ps, i, hx, p1, p2, p3, p4, p5⟩ | ⟨hx, _⟩
                · simp only [Outcome.ok.injEq] at hx
                  subst hx
                  refine ⟨log ++ log2, hsent, by simp only; omega, .inl ⟨_, ⟨e, bs⟩ :: ps, t2.ticks, rfl, hjobs _ p1, ?_, ?_, rfl, by omega⟩⟩
                  · obtain ⟨bf, last, m', r', q1, q2, q3, q4⟩ := p2
                    exact ⟨⟨e, bs⟩ :: bf, last, m', r', by rw [q1]; rfl, .cons good (m2 hn) q2, q3, q4⟩
                  · rw [g6]
                    exact assembled_cons (p := ⟨e, bs⟩) _ p3 p4 (by simp only; omega)
                · exact absurd rfl (hx msg)
        · exact absurd rfl (k4 _)
        · exact absurd rfl (k4 _)

/-! ## C35 -/

/-- What AccountTransactions leaves. -/
theorem transactions_cases (u : Setup σ α β γ δ) (L : Swift.Lib) (c : Client) (account : AccountConnection) (all : Bool)
    (tf : Timeframe) (mark : Str) (fuel : Nat) (s t : CSt σ α) (r : Outcome (List (Swift.Transaction L.F)))
    (h : transactions u L c (plainBuilder account all) tf mark fuel s = some (r, t)) :
    ∃ log, t.st.sent = s.st.sent ++ log ∧
      ((∃ ps data, jobs log = ps.map Fetched.request ∧ Complete u account all tf mark ps ∧ Assembled u ps data ∧
          r = Swift.unmarshalMT940 L data) ∨
       ((∀ txs, r ≠ .ok txs) ∧ ∃ ps tail next, jobs log = ps.map Fetched.request ++ tail ∧
          Chain u account all tf mark ps next ∧
          (tail = [] ∨ ∃ e, tail = [e] ∧ Asks u.today account all tf next e ∧ Failed u r log e))) := by
  unfold transactions at h
  obtain ⟨S, hS, hk⟩ := init_log u s
  generalize init u s = X at h hS
  obtain ⟨q, t0⟩ := X
  simp only at hS
  cases q with
  | err =>
    simp only [Option.some.injEq, Prod.mk.injEq] at h
    obtain ⟨rfl, rfl⟩ := h
    exact ⟨S, hS, .inr ⟨by simp, [], [], mark, by simp [jobs_nil hk], .nil mark, .inl rfl⟩⟩
  | panic =>
    simp only [Option.some.injEq, Prod.mk.injEq] at h
    obtain ⟨rfl, rfl⟩ := h
    exact ⟨S, hS, .inr ⟨by simp, [], [], mark, by simp [jobs_nil hk], .nil mark, .inl rfl⟩⟩
  | ok x =>
    simp only [Option.map_eq_some_iff] at h
    obtain ⟨⟨r', t'⟩, h1, h2⟩ := h
    simp only [Prod.mk.injEq] at h2
    obtain ⟨rfl, rfl⟩ := h2
    obtain ⟨log, l1, _, l3⟩ := pages_cases u c account all tf fuel mark t0 t' r' h1
    refine ⟨S ++ log, by rw [l1, hS, List.append_assoc], ?_⟩
    have hj : jobs (S ++ log) = jobs log := by rw [jobs_append, jobs_nil hk]; rfl
    rcases l3 with ⟨tx, ps, i, rfl, p1, p2, p3, _⟩ | ⟨hn, ps, tail, next, p1, p2, p3⟩
    · exact .inl ⟨ps, tx.data, by rw [hj, p1], p2, p3, rfl⟩
    · refine .inr ⟨?_, ps, tail, next, by rw [hj, p1], p2, ?_⟩
      · intro txs hx
        obtain ⟨b, hb, _⟩ := Dialog.bind_ok hx
        exact hn b hb
      · rcases p3 with rfl | ⟨e, rfl, p4, p5⟩
        · exact .inl rfl
        · refine .inr ⟨e, rfl, p4, fun m hm ha => ?_⟩
          rcases p5 m hm ha with ⟨f, f1, f2, f3⟩ | p6
          · refine .inl ⟨f, ?_, f2, f3⟩
            rw [List.getLast?_append, f1]
            rfl
          · refine .inr fun bs hbs => ⟨(p6 bs hbs).1, ?_⟩
            rw [(p6 bs hbs).2]
            rfl

/-- C35: if AccountTransactions returns transactions, the requests it sent are those for all
pages: the first with the caller's reference, each other one with the reference of the answer
before it, and the last answer has none.  Every request was answered without error.  The
transactions are read from the statements of all answers, each once; with a clock that always
advances, in the order of their reception. -/
theorem C35_pages (u : Setup σ α β γ δ) (L : Swift.Lib) (c : Client) (account : AccountConnection) (all : Bool)
    (tf : Timeframe) (mark : Str) (fuel : Nat) (s t : CSt σ α) (txs : List (Swift.Transaction L.F))
    (h : transactions u L c (plainBuilder account all) tf mark fuel s = some (.ok txs, t)) :
    ∃ (log : List (Sent σ)) (ps : List (Fetched σ)) (order : List Bytes), t.st.sent = s.st.sent ++ log ∧
      log.filter (fun e => e.kind = .job) = ps.map Fetched.request ∧ Complete u account all tf mark ps ∧
      order.Perm (statementsOf ps) ∧ (StrictMono u.clock → order = statementsOf ps) ∧
      Swift.unmarshalMT940 L order.flatten = .ok txs := by
  obtain ⟨log, h1, ⟨ps, data, h2, h3, h4, h5⟩ | ⟨h2, _⟩⟩ := transactions_cases u L c account all tf mark fuel s t _ h
  · obtain ⟨⟨o, a1, a2⟩, a3, _⟩ := h4
    by_cases hm : StrictMono u.clock
    · exact ⟨log, ps, statementsOf ps, h1, h2, h3, .refl _, fun _ => rfl, by rw [← a3 hm]; exact h5.symm⟩
    · exact ⟨log, ps, o, h1, h2, h3, a1, fun h => absurd h hm, by rw [← a2]; exact h5.symm⟩
  · exact absurd rfl (h2 txs)

/-- Two pages, each with one transaction. -/
example : Sample.summary Sample.statements =
    some (.ok [b!"12.50", b!"2.50"], [.init, .job, .end_, .init, .job, .end_]) := Sample.two_statements

/-- Two pages with three statements. -/
example : Sample.fetched Sample.twoPages (fun n => n) 3 =
    some (.ok b!"firstsecondthird", [.init, .job, .end_, .init, .job, .end_]) := Sample.two_pages

/-- C35: AccountTransactions ends in one of three ways.  All pages were fetched, and the result is
that of reading their statements.  Or it fails because the next request was not sent at all.
Or it fails because that request was sent and not answered properly: there is no readable
answer without error, or a statement in it cannot be had, or it continues without a reference,
which is a panic, or the answer to the dialog end makes the dialog panic. -/
theorem C35_outcome (u : Setup σ α β γ δ) (L : Swift.Lib) (c : Client) (account : AccountConnection) (all : Bool)
    (tf : Timeframe) (mark : Str) (fuel : Nat) (s t : CSt σ α) (r : Outcome (List (Swift.Transaction L.F)))
    (h : transactions u L c (plainBuilder account all) tf mark fuel s = some (r, t)) :
    ∃ (log : List (Sent σ)) (ps : List (Fetched σ)), t.st.sent = s.st.sent ++ log ∧
      ((log.filter (fun e => e.kind = .job) = ps.map Fetched.request ∧ Complete u account all tf mark ps ∧
          ∃ order : List Bytes, order.Perm (statementsOf ps) ∧ (StrictMono u.clock → order = statementsOf ps) ∧
            r = Swift.unmarshalMT940 L order.flatten) ∨
       (log.filter (fun e => e.kind = .job) = ps.map Fetched.request ∧ (∃ next, Chain u account all tf mark ps next) ∧
          ∀ txs, r ≠ .ok txs) ∨
       (∃ e next, log.filter (fun e => e.kind = .job) = ps.map Fetched.request ++ [e] ∧ Chain u account all tf mark ps next ∧
          Asks u.today account all tf next e ∧ (∀ txs, r ≠ .ok txs) ∧
          ∀ m, e.reply = .ok m → Accepted m → (∃ f, log.getLast? = some f ∧ f.kind = .end_ ∧ f.reply = .panic) ∨
            ∀ bs, Holds u m bs → Marked m [] ∧ r = .panic)) := by
  obtain ⟨log, h1, ⟨ps, data, h2, h3, h4, h5⟩ | ⟨h0, ps, tail, next, h2, h3, h4⟩⟩ :=
    transactions_cases u L c account all tf mark fuel s t _ h
  · obtain ⟨⟨o, a1, a2⟩, a3, _⟩ := h4
    refine ⟨log, ps, h1, .inl ⟨h2, h3, ?_⟩⟩
    by_cases hm : StrictMono u.clock
    · exact ⟨statementsOf ps, .refl _, fun _ => rfl, by rw [← a3 hm]; exact h5⟩
    · exact ⟨o, a1, fun h => absurd h hm, by rw [← a2]; exact h5⟩
  · rcases h4 with rfl | ⟨e, rfl, h5, h6⟩
    · exact ⟨log, ps, h1, .inr (.inl ⟨by rw [List.append_nil] at h2; exact h2, ⟨next, h3⟩, h0⟩)⟩
    · exact ⟨log, ps, h1, .inr (.inr ⟨e, next, h2, h3, h5, h0, h6⟩)⟩

/-- The answer continues without a reference. -/
example : Sample.fetched Sample.noReference (fun n => n) 2 = some (.panic, [.init, .job, .end_]) := Sample.no_reference

/-- C35: while the clock does not advance, the pages are put together in the reverse order of
their reception. -/
theorem C35_stopped_clock (u : Setup σ α β γ δ) (c : Client) (account : AccountConnection) (all : Bool)
    (tf : Timeframe) (mark : Str) (fuel : Nat) (s t : CSt σ α) (tx : Page) (hclock : ∀ i j, u.clock i = u.clock j)
    (h : accountTransactions u c (plainBuilder account all) tf fuel mark s = some (.ok tx, t)) :
    ∃ (log : List (Sent σ)) (ps : List (Fetched σ)), t.st.sent = s.st.sent ++ log ∧
      log.filter (fun e => e.kind = .job) = ps.map Fetched.request ∧ Complete u account all tf mark ps ∧
      ((∀ p ∈ ps, p.statements.length ≤ 12) → tx.data = (statementsOf ps.reverse).flatten) := by
  obtain ⟨log, h1, _, ⟨tx', ps, i, hx, p1, p2, p3, _⟩ | ⟨hx, _⟩⟩ := pages_cases u c account all tf fuel mark s t _ h
  · simp only [Outcome.ok.injEq] at hx
    subst hx
    exact ⟨log, ps, h1, p1, p2, p3.2.2 hclock⟩
  · exact absurd rfl (hx tx)

example : Sample.fetched Sample.twoPages (fun _ => 7) 2 =
    some (.ok b!"thirdfirstsecond", [.init, .job, .end_, .init, .job, .end_]) := Sample.two_pages_stopped

theorem more_fuel (u : Setup σ α β γ δ) (c : Client) (build : RequestBuilder) (tf : Timeframe) :
    ∀ (fuel : Nat) (mark : Str) (s : CSt σ α) (x : Outcome Page × CSt σ α),
      accountTransactions u c build tf fuel mark s = some x → accountTransactions u c build tf (fuel + 1) mark s = some x := by
  intro fuel
  induction fuel with
  | zero => intro mark s x h; simp [accountTransactions] at h
  | succ fuel ih =>
    intro mark s x h
    rw [accountTransactions] at h ⊢
    generalize page u c build tf mark s = X at *
    obtain ⟨q, t⟩ := X
    cases q with
    | err => exact h
    | panic => exact h
    | ok y =>
      obtain ⟨tx, next⟩ := y
      simp only at h ⊢
      split at h
      · rename_i hn
        rw [if_pos hn]
        exact h
      · rename_i hn
        rw [if_neg hn]
        cases hr : accountTransactions u c build tf fuel next t with
        | none => rw [hr] at h; simp at h
        | some z => rw [hr] at h; rw [ih next t z hr]; exact h

/-- C35: how the result is computed does not depend on the bound the model needs: once the
bound suffices, a larger one gives the same result. -/
theorem C35_bound (u : Setup σ α β γ δ) (c : Client) (build : RequestBuilder) (tf : Timeframe) (mark : Str) (s : CSt σ α)
    (fuel more : Nat) (x : Outcome Page × CSt σ α) (h : accountTransactions u c build tf fuel mark s = some x) :
    accountTransactions u c build tf (fuel + more) mark s = some x := by
  induction more with
  | zero => exact h
  | succ n ih => exact more_fuel u c build tf _ mark s x ih

/-- C35: SepaAccountTransactions never returns transactions, whatever the bank supports: no
version of the request is ever accepted, so that nothing is requested. -/
theorem C35_sepa_never (u : Setup σ α β γ δ) (L : Swift.Lib) (c : Client) (account : InternationalConnection) (all : Bool)
    (tf : Timeframe) (mark : Str) (fuel : Nat) (s : CSt σ α) :
    ∃ r t S, transactions u L c (sepaBuilder account all) tf mark (fuel + 1) s = some (r, t) ∧ (∀ txs, r ≠ .ok txs) ∧
      t.st.sent = s.st.sent ++ S ∧ ∀ e ∈ S, e.kind ≠ .job := by
  obtain ⟨S, hS, hk⟩ := init_log u s
  unfold transactions
  generalize init u s = X at hS
  obtain ⟨q, t0⟩ := X
  simp only at hS
  cases q with
  | err => exact ⟨.err, t0, S, rfl, by simp, hS, hk⟩
  | panic => exact ⟨.panic, t0, S, rfl, by simp, hS, hk⟩
  | ok x =>
    have hb : transactionRequest u (sepaBuilder account all) tf mark t0 = .err := by
      unfold transactionRequest sepaBuilder Builder.sepaTransactions Builder.choose
      cases newBuilder t0.st.d.supportedSegments c!"HIKAZS" with
      | none => rfl
      | some versions =>
        simp only
        unfold sepaTransactionBuilder firstImplemented
        have : (descending versions).findSome? sepaTransactionTable = none := by
          rw [List.findSome?_eq_none_iff]
          intro v _
          unfold sepaTransactionTable
          split
          · rfl
          · rename_i hv
            split
            · omega
            · rfl
        rw [this]
        rfl
    refine ⟨.err, t0, S, ?_, by simp, hS, hk⟩
    simp only
    rw [accountTransactions, page, hb]
    rfl

end Verif.Client

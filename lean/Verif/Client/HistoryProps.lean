import Verif.Client.AccountProps
import Verif.Client.NewProps
import Verif.Dialog.SupportedProps

/-
What holds for a client after every history of calls.
-/

namespace Verif.Client

open GoLib Element Element.Spec Segment Message Domain Transport Dialog

variable {σ α β γ δ : Type}

/-- The states a client can be in: `s`, or what a call of its API leaves, whatever became of
the call. -/
inductive After (u : Setup σ α β γ δ) (s : CSt σ α) : CSt σ α → Prop where
  | nothing : After u s s
  | accounts {t : CSt σ α} : After u s t → After u s (accounts u t).2
  | transactions {t t' : CSt σ α} (L : Swift.Lib) (c : Client) (build : RequestBuilder) (tf : Timeframe) (mark : Str) (fuel : Nat)
      (r : Outcome (List (Swift.Transaction L.F))) : After u s t →
      transactions u L c build tf mark fuel t = some (r, t') → After u s t'
  | balances {t : CSt σ α} (c : Client) (account : AccountConnection) (all : Bool) : After u s t →
      After u s (accountBalances u c account all t).2
  | sepaBalances {t t' : CSt σ α} (c : Client) (account : InternationalConnection) (all : Bool) (mark : Str) (fuel : Nat)
      (r : Outcome (List γ)) : After u s t → sepaAccountBalances u c account all fuel mark t = some (r, t') → After u s t'
  | status {t : CSt σ α} (c : Client) (start stop : Time.Civil) (maxEntries : Int) (mark : Str) : After u s t →
      After u s (status u c start stop maxEntries mark t).2

/-- What the calls of the client are made of: `init`, `SendMessage` and `SyncUserParameterData`. -/
inductive Went (u : Setup σ α β γ δ) : CSt σ α → CSt σ α → Prop where
  | same {s t : CSt σ α} : t.st = s.st → Went u s t
  | init (s : CSt σ α) : Went u s (init u s).2
  | send (j : Job) (s : CSt σ α) : Went u s (send u j s).2
  | user (s : CSt σ α) : Went u s { s with st := (syncUserParameterData u.world s.st).2 }
  | trans {s t r : CSt σ α} : Went u s t → Went u t r → Went u s r

theorem runAll_append (w : World σ α) (cs ds : List Call) : ∀ s : Dialog.St σ α, runAll w (cs ++ ds) s = runAll w ds (runAll w cs s) := by
  induction cs with
  | nil => intro s; rfl
  | cons c cs ih => intro s; exact ih _

theorem Went.refl (u : Setup σ α β γ δ) (s : CSt σ α) : Went u s s := .same rfl

theorem went_init (u : Setup σ α β γ δ) (s : CSt σ α) : Went u s (Client.init u s).2 := .init s

theorem went_send (u : Setup σ α β γ δ) (j : Job) (s : CSt σ α) : Went u s (Client.send u j s).2 := .send j s

/-- So the dialog has gone through a history of its own calls. -/
theorem Went.calls {u : Setup σ α β γ δ} {s t : CSt σ α} (h : Went u s t) : ∃ cs, t.st = runAll u.world cs s.st := by
  induction h with
  | same h => exact ⟨[], h⟩
  | init s =>
    unfold Client.init
    split
    · exact ⟨[.sync], rfl⟩
    · exact ⟨[], rfl⟩
  | send j s => exact ⟨[.send j], rfl⟩
  | user s => exact ⟨[.syncUser], rfl⟩
  | trans _ _ h1 h2 =>
    obtain ⟨cs, h1⟩ := h1
    obtain ⟨ds, h2⟩ := h2
    exact ⟨cs ++ ds, by rw [h2, h1, runAll_append]⟩

theorem went_readPage (u : Setup σ α β γ δ) (m : Decrypted σ) (s : CSt σ α) : Went u s (readPage u m s).2 := by
  unfold readPage
  cases collect (viewChecked u.views.statement) (m.segments c!"HIKAZ") with
  | err => exact .refl u s
  | panic => exact .refl u s
  | ok bs => cases continuation m <;> exact .same rfl

theorem went_page (u : Setup σ α β γ δ) (c : Client) (build : RequestBuilder) (tf : Timeframe) (mark : Str) (s : CSt σ α) :
    Went u s (page u c build tf mark s).2 := by
  unfold page
  cases transactionRequest u build tf mark s with
  | err => exact .refl u s
  | panic => exact .refl u s
  | ok q =>
    have h1 : Went u s { s with ticks := s.ticks + 1 } := .same rfl
    have h2 := h1.trans (went_send u (jobOf c q) _)
    simp only
    rcases hx : send u (jobOf c q) { s with ticks := s.ticks + 1 } with ⟨r, t⟩
    rw [hx] at h2
    cases r with
    | err => exact h2
    | panic => exact h2
    | ok m => exact h2.trans (went_readPage u m t)

theorem went_pages (u : Setup σ α β γ δ) (c : Client) (build : RequestBuilder) (tf : Timeframe) :
    ∀ (fuel : Nat) (mark : Str) (s t : CSt σ α) (r : Outcome Page),
      accountTransactions u c build tf fuel mark s = some (r, t) → Went u s t := by
  intro fuel
  induction fuel with
  | zero => intro mark s t r h; simp [accountTransactions] at h
  | succ fuel ih =>
    intro mark s t r h
    unfold accountTransactions at h
    have h1 := went_page u c build tf mark s
    rcases hx : page u c build tf mark s with ⟨q, t1⟩
    rw [hx] at h h1
    cases q with
    | err =>
      simp only [Option.some.injEq, Prod.mk.injEq] at h
      rw [← h.2]
      exact h1
    | panic =>
      simp only [Option.some.injEq, Prod.mk.injEq] at h
      rw [← h.2]
      exact h1
    | ok x =>
      obtain ⟨tx, next⟩ := x
      simp only at h
      split at h
      · simp only [Option.some.injEq, Prod.mk.injEq] at h
        rw [← h.2]
        exact h1
      · cases hy : accountTransactions u c build tf fuel next t1 with
        | none => rw [hy] at h; simp at h
        | some y =>
          obtain ⟨q2, t2⟩ := y
          have h2 := h1.trans (ih next t1 t2 q2 hy)
          rw [hy] at h
          cases q2 with
          | err =>
            simp only [Option.some.injEq, Prod.mk.injEq] at h
            rw [← h.2]
            exact h2
          | panic =>
            simp only [Option.some.injEq, Prod.mk.injEq] at h
            rw [← h.2]
            exact h2
          | ok msg =>
            simp only [Option.some.injEq, Prod.mk.injEq] at h
            rw [← h.2]
            exact h2.trans (.same rfl)

theorem went_balancePage (u : Setup σ α β γ δ) (c : Client) (account : InternationalConnection) (all : Bool) (mark : Str)
    (s : CSt σ α) : Went u s (balancePage u c account all mark s).2 := by
  unfold balancePage
  have h1 := went_init u s
  generalize init u s = X at h1 ⊢
  obtain ⟨q, t⟩ := X
  cases q with
  | err => exact h1
  | panic => exact h1
  | ok x =>
    simp only
    cases (newBuilder t.st.d.supportedSegments).sepaBalance account all with
    | err => exact h1
    | panic => exact h1
    | ok q => exact h1.trans (went_send u _ t)

theorem went_balances (u : Setup σ α β γ δ) (c : Client) (account : InternationalConnection) (all : Bool) :
    ∀ (fuel : Nat) (mark : Str) (s t : CSt σ α) (r : Outcome (List γ)),
      sepaAccountBalances u c account all fuel mark s = some (r, t) → Went u s t := by
  intro fuel
  induction fuel with
  | zero => intro mark s t r h; simp [sepaAccountBalances] at h
  | succ fuel ih =>
    intro mark s t r h
    unfold sepaAccountBalances at h
    have h1 := went_balancePage u c account all mark s
    rcases hx : balancePage u c account all mark s with ⟨q, t1⟩
    rw [hx] at h h1
    cases q with
    | err =>
      simp only [Option.some.injEq, Prod.mk.injEq] at h
      rw [← h.2]
      exact h1
    | panic =>
      simp only [Option.some.injEq, Prod.mk.injEq] at h
      rw [← h.2]
      exact h1
    | ok x =>
      obtain ⟨bs, next⟩ := x
      simp only at h
      split at h
      · simp only [Option.some.injEq, Prod.mk.injEq] at h
        rw [← h.2]
        exact h1
      · simp only [Option.map_eq_some_iff] at h
        obtain ⟨⟨q2, t2⟩, hy, h⟩ := h
        simp only [Prod.mk.injEq] at h
        rw [← h.2]
        exact h1.trans (ih next t1 t2 q2 hy)

/-- Every call of the client goes through calls of the dialog. -/
theorem after_went {u : Setup σ α β γ δ} {s t : CSt σ α} (h : After u s t) : Went u s t := by
  induction h with
  | nothing => exact .refl u s
  | @accounts t h ih =>
    refine ih.trans ?_
    unfold Client.accounts
    have h1 := went_init u t
    generalize init u t = X at h1 ⊢
    obtain ⟨q, t'⟩ := X
    cases q with
    | err => exact h1
    | panic => exact h1
    | ok x => exact h1.trans (.user t')
  | @transactions t t' L c build tf mark fuel r h hx ih =>
    refine ih.trans ?_
    unfold Client.transactions at hx
    have h1 := went_init u t
    rcases hi : init u t with ⟨q, t1⟩
    rw [hi] at h1 hx
    cases q with
    | err =>
      simp only [Option.some.injEq, Prod.mk.injEq] at hx
      rw [← hx.2]
      exact h1
    | panic =>
      simp only [Option.some.injEq, Prod.mk.injEq] at hx
      rw [← hx.2]
      exact h1
    | ok x =>
      simp only [Option.map_eq_some_iff] at hx
      obtain ⟨⟨q2, t2⟩, hy, hx⟩ := hx
      simp only [Prod.mk.injEq] at hx
      rw [← hx.2]
      exact h1.trans (went_pages u c build tf fuel mark t1 t2 q2 hy)
  | @balances t c account all h ih =>
    refine ih.trans ?_
    unfold accountBalances
    have h1 := went_init u t
    generalize init u t = X at h1 ⊢
    obtain ⟨q, t'⟩ := X
    cases q with
    | err => exact h1
    | panic => exact h1
    | ok x =>
      simp only
      cases (newBuilder t'.st.d.supportedSegments).balance account all with
      | err => exact h1
      | panic => exact h1
      | ok q => exact h1.trans (went_send u _ t')
  | @sepaBalances t t' c account all mark fuel r h hx ih => exact ih.trans (went_balances u c account all fuel mark t t' r hx)
  | @status t c start stop maxEntries mark h ih =>
    refine ih.trans ?_
    unfold Client.status
    have h1 := went_init u t
    generalize init u t = X at h1 ⊢
    obtain ⟨q, t'⟩ := X
    cases q with
    | err => exact h1
    | panic => exact h1
    | ok x =>
      simp only
      cases (newBuilder t'.st.d.supportedSegments).status start stop maxEntries mark with
      | err => exact h1
      | panic => exact h1
      | ok q => exact h1.trans (went_send u _ t')

theorem new_dialog {w : World σ α} {data : List Bankinfo.BankInfo} {config : Config} {url : Str} {v : Version}
    {s : Dialog.St σ α} (h : new w data config = .ok (url, v, s)) :
    s = runAll w [.setPin config.pin] ⟨newPinTanDialog w ⟨280, config.bankId⟩ config.accountId v config.productName
      config.productVersion, 0, []⟩ := by
  unfold new at h
  obtain ⟨⟨u', v'⟩, _, h2⟩ := map_ok h
  simp only [Prod.mk.injEq] at h2
  obtain ⟨_, rfl, rfl⟩ := h2
  rfl

theorem client_history {u : Setup σ α β γ δ} {data : List Bankinfo.BankInfo} {config : Config} {url : Str} {v : Version}
    {s0 : Dialog.St σ α} {n : Nat} {s : CSt σ α} (h : new u.world data config = .ok (url, v, s0)) (hs : After u ⟨s0, n⟩ s) :
    ∃ cs, s.st = runAll u.world cs ⟨newPinTanDialog u.world ⟨280, config.bankId⟩ config.accountId v config.productName
      config.productVersion, 0, []⟩ := by
  obtain ⟨cs, h1⟩ := (after_went hs).calls
  rw [new_dialog h, ← runAll_append] at h1
  exact ⟨_, h1⟩

/-- C69: the Status method of a client never succeeds and never sends a request, whatever the
bank offers and whatever was called before. -/
theorem C69_client (u : Setup σ α β γ δ) (data : List Bankinfo.BankInfo) (config : Config) (url : Str) (v : Version)
    (s0 : Dialog.St σ α) (n : Nat) (s : CSt σ α) (h : new u.world data config = .ok (url, v, s0)) (hs : After u ⟨s0, n⟩ s)
    (c : Client) (start stop : Time.Civil) (maxEntries : Int) (mark : Str) :
    (∀ xs, (status u c start stop maxEntries mark s).1 ≠ .ok xs) ∧
    ∃ log, (status u c start stop maxEntries mark s).2.st.sent = s.st.sent ++ log ∧ ∀ e ∈ log, e.kind ≠ .job := by
  obtain ⟨S, hS, hk⟩ := init_log u s
  obtain ⟨ds, hd⟩ := (went_init u s).calls
  obtain ⟨cs, hc⟩ := client_history h hs
  rw [hc, ← runAll_append] at hd
  have hb : ∀ t : CSt σ α, t = (init u s).2 →
      (newBuilder t.st.d.supportedSegments).status start stop maxEntries mark = .err := by
    rintro t rfl
    rw [hd]
    exact C69_history u.world _ _ _ _ _ _ _ _ _ _ _ _
  unfold status
  clear hd hc
  generalize init u s = X at hS hb ⊢
  obtain ⟨q, t⟩ := X
  cases q with
  | err => exact ⟨by simp, S, hS, hk⟩
  | panic => exact ⟨by simp, S, hS, hk⟩
  | ok x =>
    simp only
    rw [hb t rfl]
    exact ⟨by simp, S, hS, hk⟩

/-- C28 for a client: in every history the signature provider has the dialog's client system ID, and
the crypto provider has it or none. -/
theorem C28_client (u : Setup σ α β γ δ) (data : List Bankinfo.BankInfo) (config : Config) (url : Str) (v : Version)
    (s0 : Dialog.St σ α) (n : Nat) (s : CSt σ α) (h : new u.world data config = .ok (url, v, s0)) (hs : After u ⟨s0, n⟩ s) :
    s.st.d.sig.clientSystemId = s.st.d.clientSystemId ∧
    (s.st.d.crypto.clientSystemId = s.st.d.clientSystemId ∨ s.st.d.crypto.clientSystemId = c!"0") := by
  obtain ⟨cs, hc⟩ := client_history h hs
  rw [hc]
  exact C28_invariant u.world cs _ _ _ _ _ _ _

/-- C30 for a client: both providers use the same security function, the dialog's or 999. -/
theorem C30_client (u : Setup σ α β γ δ) (data : List Bankinfo.BankInfo) (config : Config) (url : Str) (v : Version)
    (s0 : Dialog.St σ α) (n : Nat) (s : CSt σ α) (h : new u.world data config = .ok (url, v, s0)) (hs : After u ⟨s0, n⟩ s) :
    s.st.d.sig.securityFn = s.st.d.crypto.securityFn ∧
    (s.st.d.sig.securityFn = s.st.d.securityFn ∨ s.st.d.sig.securityFn = c!"999") := by
  obtain ⟨cs, hc⟩ := client_history h hs
  rw [hc]
  exact C30_invariant u.world cs _ _ _ _ _ _ _

/-- A new client that was asked for its accounts, of a bank that offers HIPRO. -/
example : ∃ (s0 : Dialog.St Bytes Bytes) (s : CSt Bytes Bytes),
    new (Sample.setup Dialog.Sample.good fun n => n).world sampleTable (sampleConfig c!"1000") =
      .ok (c!"https://bank/", .fints300, s0) ∧
    After (Sample.setup Dialog.Sample.good fun n => n) ⟨s0, 0⟩ s ∧ s.st.sent.length = 4 := by
  refine ⟨_, _, rfl, .accounts .nothing, ?_⟩
  decide +kernel

end Verif.Client

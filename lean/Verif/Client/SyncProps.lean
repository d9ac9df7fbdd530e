import Verif.Client.HistoryProps
import Verif.Dialog.BankDataProps

/-
C87: when a client synchronises.
-/

namespace Verif.Client

open GoLib Element Element.Spec Segment Message Domain Transport Dialog

variable {σ α β γ δ : Type}

/-! ## Specification -/

/-- A reason to synchronise: no bank parameters, or no client system ID. -/
def Needed (k : Knowledge) : Prop := k.bank.version = 0 ∨ k.systemId = c!"0"

/-- One call of the client's API, whatever became of it. -/
inductive Called (u : Setup σ α β γ δ) (s : CSt σ α) : CSt σ α → Prop where
  | accounts : Called u s (accounts u s).2
  | transactions {t : CSt σ α} (L : Swift.Lib) (c : Client) (build : RequestBuilder) (tf : Timeframe) (mark : Str) (fuel : Nat)
      (r : Outcome (List (Swift.Transaction L.F))) : transactions u L c build tf mark fuel s = some (r, t) → Called u s t
  | balances (c : Client) (account : AccountConnection) (all : Bool) : Called u s (accountBalances u c account all s).2
  | sepaBalances {t : CSt σ α} (c : Client) (account : InternationalConnection) (all : Bool) (mark : Str) (fuel : Nat)
      (r : Outcome (List γ)) : sepaAccountBalances u c account all fuel mark s = some (r, t) → Called u s t
  | status (c : Client) (start stop : Time.Civil) (maxEntries : Int) (mark : Str) :
      Called u s (status u c start stop maxEntries mark s).2

/-! ## Lemmas -/

/-- The log grows, what is known follows from it, and every synchronisation in it was needed. -/
def Sparing (w : World σ α) (s t : St σ α) : Prop :=
  ∃ E, t.sent = s.sent ++ E ∧ knows t.d = E.foldl (learn w) (knows s.d) ∧
    ∀ A e B, E = A ++ e :: B → e.kind = .sync → Needed (A.foldl (learn w) (knows s.d))

theorem Sparing.trans {w : World σ α} {s t r : St σ α} (h1 : Sparing w s t) (h2 : Sparing w t r) : Sparing w s r := by
  obtain ⟨E, a1, a2, a3⟩ := h1
  obtain ⟨F, b1, b2, b3⟩ := h2
  refine ⟨E ++ F, by rw [b1, a1, List.append_assoc], by rw [b2, a2, List.foldl_append], ?_⟩
  intro A e B h hk
  rcases List.append_eq_append_iff.1 h with ⟨C, hA, hF⟩ | ⟨C, hE, hB⟩
  · rw [hA, List.foldl_append, ← a2]
    exact b3 C e B hF hk
  · cases C with
    | nil =>
      rw [List.append_nil] at hE
      rw [← hE, ← a2]
      exact b3 [] e B hB.symm hk
    | cons c C =>
      rw [List.cons_append, List.cons.injEq] at hB
      rw [← hB.1] at hE
      exact a3 A e C hE hk

theorem syncLog_first {w : World σ α} {v n : Int} {id : Str} {S : List (Sent σ)} (h : SyncLog w v n id S) {A B : List (Sent σ)}
    {e : Sent σ} (hS : S = A ++ e :: B) (hk : e.kind = .sync) : A = [] := by
  cases h with
  | unsent => simp at hS
  | request a _ ha =>
    cases A with
    | nil => rfl
    | cons x A => simp at hS
  | full a f _ _ _ ha _ _ _ hf =>
    cases A with
    | nil => rfl
    | cons x A =>
      cases A with
      | nil =>
        simp only [List.cons_append, List.nil_append, List.cons.injEq] at hS
        obtain ⟨_, rfl, _⟩ := hS
        rw [hf.kind] at hk
        simp at hk
      | cons y A => simp at hS

theorem dialogLog_none {w : World σ α} {acc : Decrypted σ → Outcome Unit} {v : Int} {j : Option Job} {D : List (Sent σ)}
    (h : DialogLog w acc v j D) : ∀ e ∈ D, e.kind ≠ .sync := by
  cases h with
  | unsent => simp
  | refused e _ he _ => simp [he.kind]
  | bare e f _ _ _ _ he _ _ _ hf => simp [he.kind, hf.kind]
  | unsendable e f _ _ _ _ _ _ he _ _ _ hf => simp [he.kind, hf.kind]
  | full e g f _ _ _ _ _ _ he _ _ _ hg hf => simp [he.kind, hf.kind, hg.kind]

theorem ensured_sparing {w : World σ α} {s t : St σ α} {v n : Int} {id : Str} {acc : Decrypted σ → Outcome Unit} {j : Option Job}
    {E S D : List (Sent σ)} (hE : t.sent = s.sent ++ E) (hk : knows t.d = E.foldl (learn w) (knows s.d))
    (h1 : t.sent = s.sent ++ (S ++ D)) (h2 : SyncLog w v n id S) (h3 : DialogLog w acc v j D)
    (h4 : s.d.clientSystemId ≠ c!"0" → S = []) : Sparing w s t := by
  rw [hE] at h1
  have h1 := List.append_cancel_left h1
  subst h1
  refine ⟨_, hE, hk, ?_⟩
  intro A e B h hs
  have hmem : e ∈ S ++ D := by rw [h]; simp
  have hS : S ≠ [] := by
    rintro rfl
    rw [List.nil_append] at hmem
    exact dialogLog_none h3 e hmem hs
  have hid : s.d.clientSystemId = c!"0" := by
    by_contra hc
    exact hS (h4 hc)
  rcases List.append_eq_append_iff.1 h with ⟨C, _, hD⟩ | ⟨C, hA, hB⟩
  · exact absurd hs (dialogLog_none h3 e (by rw [hD]; simp))
  · cases C with
    | nil => exact absurd hs (dialogLog_none h3 e (by rw [List.nil_append] at hB; rw [← hB]; simp))
    | cons c C =>
      rw [List.cons_append, List.cons.injEq] at hB
      rw [← hB.1] at hA
      have := syncLog_first h2 hA hs
      subst this
      exact .inr hid

theorem sync_sparing (w : World σ α) (s : St σ α) (h0 : s.d.bankParameterData.parameters.version = 0) :
    Sparing w s (syncClientSystemId w s).2 := by
  obtain ⟨E, h1, _, h2⟩ := history_knows w [.sync] s
  have h1 : (syncClientSystemId w s).2.sent = s.sent ++ E := h1
  have h2 : knows (syncClientSystemId w s).2.d = E.foldl (learn w) (knows s.d) := h2
  obtain ⟨S, h3, h4, _⟩ := sync_log w s
  rw [h1] at h3
  have h3 := List.append_cancel_left h3
  subst h3
  refine ⟨_, h1, h2, ?_⟩
  intro A e B h hs
  have := syncLog_first h4 h hs
  subst this
  exact .inl h0

theorem went_sparing {u : Setup σ α β γ δ} {s t : CSt σ α} (h : Went u s t) : Sparing u.world s.st t.st := by
  induction h with
  | same h => rw [h]; exact ⟨[], by simp, rfl, by simp⟩
  | init s =>
    unfold Client.init
    split
    · exact sync_sparing u.world s.st ‹_›
    · exact ⟨[], by simp, rfl, by simp⟩
  | send j s =>
    obtain ⟨E, h1, _, h2⟩ := history_knows u.world [.send j] s.st
    obtain ⟨S, D, h3, h4, h5, h6⟩ := send_log u.world j s.st
    exact ensured_sparing h1 h2 h3 h4 h5 h6
  | user s =>
    obtain ⟨E, h1, _, h2⟩ := history_knows u.world [.syncUser] s.st
    obtain ⟨S, D, h3, h4, h5, h6⟩ := user_log u.world s.st
    exact ensured_sparing h1 h2 h3 h4 h5 h6
  | trans _ _ h1 h2 => exact h1.trans h2

theorem went_balanceRest (u : Setup σ α β γ δ) (c : Client) (account : InternationalConnection) (all : Bool) (mark : Str)
    (s : CSt σ α) : (∀ x, (init u s).1 ≠ .ok x) ∧ balancePage u c account all mark s = ((init u s).1.bind fun _ => .err, (init u s).2) ∨
      (∃ x, (init u s).1 = .ok x) ∧ Went u (init u s).2 (balancePage u c account all mark s).2 := by
  unfold balancePage
  generalize init u s = X
  obtain ⟨q, t⟩ := X
  cases q with
  | err => exact .inl ⟨by simp, rfl⟩
  | panic => exact .inl ⟨by simp, rfl⟩
  | ok x =>
    refine .inr ⟨⟨x, rfl⟩, ?_⟩
    simp only
    cases (newBuilder t.st.d.supportedSegments).sepaBalance account all with
    | err => exact .refl u t
    | panic => exact .refl u t
    | ok q => exact went_send u _ t

/-- A call begins with `init`, and ends with it if it fails. -/
theorem called_init {u : Setup σ α β γ δ} {s t : CSt σ α} (h : Called u s t) :
    (∀ x, (init u s).1 ≠ .ok x) ∧ t = (init u s).2 ∨ (∃ x, (init u s).1 = .ok x) ∧ Went u (init u s).2 t := by
  cases h with
  | accounts =>
    unfold Client.accounts
    generalize init u s = X
    obtain ⟨q, t⟩ := X
    cases q with
    | err => exact .inl ⟨by simp, rfl⟩
    | panic => exact .inl ⟨by simp, rfl⟩
    | ok x => exact .inr ⟨⟨x, rfl⟩, .user t⟩
  | transactions L c build tf mark fuel r h =>
    unfold Client.transactions at h
    generalize init u s = X at h ⊢
    obtain ⟨q, t'⟩ := X
    cases q with
    | err =>
      simp only [Option.some.injEq, Prod.mk.injEq] at h
      exact .inl ⟨by simp, h.2.symm⟩
    | panic =>
      simp only [Option.some.injEq, Prod.mk.injEq] at h
      exact .inl ⟨by simp, h.2.symm⟩
    | ok x =>
      simp only [Option.map_eq_some_iff] at h
      obtain ⟨⟨q2, t2⟩, hy, h⟩ := h
      simp only [Prod.mk.injEq] at h
      rw [← h.2]
      exact .inr ⟨⟨x, rfl⟩, went_pages u c build tf fuel mark t' t2 q2 hy⟩
  | balances c account all =>
    unfold accountBalances
    generalize init u s = X
    obtain ⟨q, t⟩ := X
    cases q with
    | err => exact .inl ⟨by simp, rfl⟩
    | panic => exact .inl ⟨by simp, rfl⟩
    | ok x =>
      refine .inr ⟨⟨x, rfl⟩, ?_⟩
      simp only
      cases (newBuilder t.st.d.supportedSegments).balance account all with
      | err => exact .refl u t
      | panic => exact .refl u t
      | ok q => exact went_send u _ t
  | sepaBalances c account all mark fuel r h =>
    cases fuel with
    | zero => simp [sepaAccountBalances] at h
    | succ fuel =>
      unfold sepaAccountBalances at h
      rcases went_balanceRest u c account all mark s with ⟨h1, h2⟩ | ⟨hok, h1⟩
      · rw [h2] at h
        left
        refine ⟨h1, ?_⟩
        cases hi : (init u s).1 with
        | ok x => exact absurd hi (h1 x)
        | err =>
          rw [hi] at h
          simp only [Outcome.bind, Option.some.injEq, Prod.mk.injEq] at h
          exact h.2.symm
        | panic =>
          rw [hi] at h
          simp only [Outcome.bind, Option.some.injEq, Prod.mk.injEq] at h
          exact h.2.symm
      · refine .inr ⟨hok, ?_⟩
        rcases hx : balancePage u c account all mark s with ⟨q, t1⟩
        rw [hx] at h h1
        cases q with
        | err =>
          simp only [Option.some.injEq, Prod.mk.injEq] at h
          rw [← h.2]
          exact h1
        | panic =>
          simp only [Option.some.injEq, Prod.mk.injEq] at h
          rw [← h.2]
          exact h1
        | ok x =>
          obtain ⟨bs, next⟩ := x
          simp only at h
          split at h
          · simp only [Option.some.injEq, Prod.mk.injEq] at h
            rw [← h.2]
            exact h1
          · simp only [Option.map_eq_some_iff] at h
            obtain ⟨⟨q2, t2⟩, hy, h⟩ := h
            simp only [Prod.mk.injEq] at h
            rw [← h.2]
            exact h1.trans (went_balances u c account all fuel next t1 t2 q2 hy)
  | status c start stop maxEntries mark =>
    unfold Client.status
    generalize init u s = X
    obtain ⟨q, t⟩ := X
    cases q with
    | err => exact .inl ⟨by simp, rfl⟩
    | panic => exact .inl ⟨by simp, rfl⟩
    | ok x =>
      refine .inr ⟨⟨x, rfl⟩, ?_⟩
      simp only
      cases (newBuilder t.st.d.supportedSegments).status start stop maxEntries mark with
      | err => exact .refl u t
      | panic => exact .refl u t
      | ok q => exact went_send u _ t

/-! ## C87 -/

/-- C87: in every history of calls, a synchronisation is sent only when at that time the bank
parameters known have version 0 or no client system ID is known; what is known follows from the
answers so far. -/
theorem C87_only_needed (u : Setup σ α β γ δ) (s t : CSt σ α) (h : After u s t) (A B : List (Sent σ)) (e : Sent σ)
    (hs : t.st.sent = s.st.sent ++ (A ++ e :: B)) (hk : e.kind = .sync) :
    Needed (A.foldl (learn u.world) (knows s.st.d)) := by
  obtain ⟨E, h1, _, h3⟩ := went_sparing (after_went h)
  rw [h1] at hs
  exact h3 A e B (List.append_cancel_left hs) hk

/-- C87: a call of a client that knows no bank parameters, or such with version 0, sends a
synchronisation before anything else. -/
theorem C87_first (u : Setup σ α β γ δ) (s t : CSt σ α) (h : Called u s t)
    (h0 : s.st.d.bankParameterData.parameters.version = 0) (e : Sent σ) (E : List (Sent σ))
    (hs : t.st.sent = s.st.sent ++ e :: E) : e.kind = .sync := by
  have hi : (init u s).1 = ((syncClientSystemId u.world s.st).1.map' fun _ => ()) ∧
      (init u s).2.st = (syncClientSystemId u.world s.st).2 := by
    unfold Client.init
    rw [if_pos h0]
    exact ⟨rfl, rfl⟩
  have key : (∀ x, (init u s).1 ≠ .ok x) ∧ (init u s).2.st.sent = s.st.sent ∨
      ∃ e F, (init u s).2.st.sent = s.st.sent ++ e :: F ∧ e.kind = .sync := by
    rw [hi.1, hi.2]
    rcases sync_spec u.world s.st with h | ⟨e, he, h | ⟨m, h⟩ | ⟨m, t, h⟩⟩
    · left
      refine ⟨fun x hx => ?_, by rw [h.state]⟩
      obtain ⟨y, hy, _⟩ := map_ok hx
      exact h.fails y hy
    · exact .inr ⟨e, [], by rw [h.state]; rfl, he.kind⟩
    · obtain ⟨o, hs⟩ := h.state
      have hl := hs.logs
      unfold logs at hl
      simp only [Prod.mk.injEq] at hl
      exact .inr ⟨e, [], by rw [hl.1]; rfl, he.kind⟩
    · rcases h.end_ with ⟨_, _, h1⟩ | ⟨_, f, h2, _⟩
      · exact .inr ⟨e, [], h1, he.kind⟩
      · exact .inr ⟨e, [f], h2, he.kind⟩
  have hg : ∃ F, t.st.sent = (init u s).2.st.sent ++ F := by
    rcases called_init h with ⟨_, rfl⟩ | ⟨_, h⟩
    · exact ⟨[], by simp⟩
    · obtain ⟨F, hF, _⟩ := went_sparing h
      exact ⟨F, hF⟩
  rcases key with ⟨k1, k2⟩ | ⟨e', F, k1, k2⟩
  · rcases called_init h with ⟨_, rfl⟩ | ⟨⟨x, hx⟩, _⟩
    · rw [k2] at hs
      simp at hs
    · exact absurd hx (k1 x)
  · obtain ⟨G, hG⟩ := hg
    rw [hG, k1, List.append_assoc] at hs
    have := List.append_cancel_left hs
    simp only [List.cons_append, List.cons.injEq] at this
    rw [← this.1]
    exact k2

/-- C87: so as long as the bank has not sent its parameters, every call of a new client sends a
synchronisation first. -/
theorem C87_again (u : Setup σ α β γ δ) (data : List Bankinfo.BankInfo) (config : Config) (url : Str) (v : Version)
    (s0 : Dialog.St σ α) (n : Nat) (s t : CSt σ α) (h : new u.world data config = .ok (url, v, s0)) (hs : After u ⟨s0, n⟩ s)
    (hn : ∀ g ∈ s.st.sent, ∀ x, g.reply = .ok x → find x c!"HIBPA" = none) (hc : Called u s t)
    (e : Sent σ) (E : List (Sent σ)) (ht : t.st.sent = s.st.sent ++ e :: E) : e.kind = .sync := by
  obtain ⟨cs, hcs⟩ := client_history h hs
  refine C87_first u s t hc ?_ e E ht
  rw [hcs] at hn ⊢
  rw [(C86_unchanged u.world cs _ _ rfl fun g hg x hx => hn g hg x hx.1).1]
  rfl

/-- Non-vacuity of the theorems above: a bank that sends no parameters is asked for a client
system ID with every call, and one that sends them only once.  Both are new clients. -/
example :
    (asked 2).st.sent.map Sent.kind = [.sync, .end_, .init, .end_, .sync, .end_, .init, .end_] ∧
    (asked 2).st.sent.all (fun g => match g.reply with | .ok x => (find x c!"HIBPA").isNone | _ => true) = true ∧
    (let u := { Sample.setup Dialog.Sample.good fun n => n with world := Dialog.Sample.telling }
     (accounts u (accounts u ⟨Dialog.Sample.fresh Dialog.Sample.good, 0⟩).2).2.st.sent.map Sent.kind =
      [.sync, .end_, .init, .end_, .init, .end_]) ∧
    (new (Sample.setup Dialog.Sample.good fun n => (n : Int)).world [] ⟨c!"10000000", c!"user", c!"secret", c!"https://x", 300, [], []⟩).map'
      (fun r => (r.2.2.d.dialogId, r.2.2.d.clientId, r.2.2.sent.length)) = .ok (c!"0", c!"user", 0) := by
  decide +kernel

end Verif.Client

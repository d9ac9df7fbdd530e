import Verif.Dialog.StateProps

/-
A part of the dialog that only answers change is a fold over the log of the messages sent.
-/

namespace Verif.Dialog

open GoLib Element Segment Message Domain Transport

variable {σ α δ : Type}

/-- A part `f` of a dialog: `u` is what reading the parameters in an answer does to it, `v` what
taking a client system ID does, and nothing else touches it. -/
structure Part (w : World σ α) (f : Dialog σ α → δ) (u : Decrypted σ → δ → δ) (v : Str → δ → δ) : Prop where
  count : ∀ d n, f { d with messageCount := n } = f d
  dialogId : ∀ d i, f { d with dialogId := i } = f d
  crypto : ∀ d c, f { d with crypto := c } = f d
  sig : ∀ d c, f { d with sig := c } = f d
  fn : ∀ d x, f { d with securityFn := x } = f d
  systemId : ∀ d i, f { d with clientSystemId := i } = v i (f d)
  parse : ∀ m s, f (parseBoth w m s).2.d = u m (f s.d)

/-- What becomes of the part after the answer to a message. -/
def learnWith (w : World σ α) (u : Decrypted σ → δ → δ) (v : Str → δ → δ) (k : δ) (e : Sent σ) : δ :=
  match e.kind, e.reply with
  | .init, .ok m => if m.header.dialogId = none then k else u m k
  | .sync, .ok m =>
    match (assignable w m).bind fun _ => assignedId w m with
    | .ok id => u m (v id k)
    | _ => k
  | _, _ => k

variable {w : World σ α} {f : Dialog σ α → δ} {u : Decrypted σ → δ → δ} {v : Str → δ → δ}

theorem Part.updateSecurityFunction (h : Part w f u v) (m : Decrypted σ) : Keeps (fun s => f s.d) (updateSecurityFunction w m) := by
  intro s
  rcases updateSecurityFunction_spec w m s with h' | ⟨fn, _, _, _, h'⟩ <;> rw [h']
  show f (setSecurityFunction fn s.d) = f s.d
  have : setSecurityFunction fn s.d =
    { { { s.d with securityFn := fn } with sig := { s.d.sig with securityFn := fn } } with
      crypto := { s.d.crypto with securityFn := fn } } := rfl
  rw [this, h.crypto, h.sig, h.fn]

theorem Part.takeDialogId (h : Part w f u v) (m : Decrypted σ) : Keeps (fun s => f s.d) (takeDialogId m) := by
  intro s
  unfold Dialog.takeDialogId
  cases m.header.dialogId with
  | none => rfl
  | some i => exact h.dialogId s.d i

theorem Part.opening (h : Part w f u v) (m : Decrypted σ) (g : M σ α Unit) (hg : Keeps (fun s => f s.d) g) (s : St σ α) :
    f (((Dialog.takeDialogId m).bind fun _ => (parseBoth w m).bind fun _ => g) s).2.d =
      if m.header.dialogId = none then f s.d else u m (f s.d) := by
  unfold Dialog.takeDialogId
  cases hd : m.header.dialogId with
  | none => simp [M.bind]
  | some i =>
    simp only [M.bind, reduceCtorEq, if_false]
    have h1 := h.parse m { s with d := { s.d with dialogId := i } }
    rcases hb : parseBoth w m { s with d := { s.d with dialogId := i } } with ⟨r, t⟩
    rw [hb] at h1
    simp only [h.dialogId] at h1
    cases r with
    | err => exact h1
    | panic => exact h1
    | ok _ => exact (hg t).trans h1

theorem Part.synced (h : Part w f u v) (m : Decrypted σ) (s : St σ α) : f (synced w m s).2.d =
    match (assignable w m).bind fun _ => assignedId w m with
    | .ok id => u m (v id (f s.d))
    | _ => f s.d := by
  have hc : Keeps (fun s : St σ α => f s.d) (checked w m) :=
    .bind (h.takeDialogId m) fun _ => .bind (.lift _) fun _ => h.updateSecurityFunction m
  rw [synced_eq]
  have h1 := checked_result w m s
  have h2 : f (checked w m s).2.d = f s.d := hc s
  by_cases ha : assignable w m = .ok ()
  · rw [ha] at h1 ⊢
    rw [M.bind_of_ok h1]
    simp only [Outcome.bind]
    generalize (checked w m s).2 = t at *
    rcases takeClientSystemId_spec w m t with ⟨id, hi, ht⟩ | ⟨o, ho, hi, _, ht⟩
    · have hb : (takeClientSystemId w m t).1 = .ok () := by rw [ht]
      rw [M.bind_of_ok hb, ht, hi]
      simp only
      rw [h.parse, ← h2]
      have : setClientSystemId id t.d =
        { { { t.d with clientSystemId := id } with sig := { t.d.sig with clientSystemId := id } } with
          crypto := { t.d.crypto with clientSystemId := id } } := rfl
      rw [this, h.crypto, h.sig, h.systemId]
    · have hn : ∀ b, (takeClientSystemId w m t).1 ≠ .ok b := by rw [ht]; exact fun _ => ho
      rw [(M.bind_notOk hn).1, ht]
      cases hx : assignedId w m with
      | ok id => exact absurd hx (hi id)
      | err => exact h2
      | panic => exact h2
  · have hn : ∀ b, (checked w m s).1 ≠ .ok b := by rw [h1]; exact fun b hb => ha hb
    rw [(M.bind_notOk hn).1]
    cases hx : assignable w m with
    | ok i => exact absurd hx ha
    | err => exact h2
    | panic => exact h2

/-- The part follows the log. -/
def Follows (w : World σ α) (f : Dialog σ α → δ) (u : Decrypted σ → δ → δ) (v : Str → δ → δ) (s t : St σ α) : Prop :=
  ∃ E, t.sent = s.sent ++ E ∧ f t.d = E.foldl (learnWith w u v) (f s.d)

theorem Follows.refl (s : St σ α) : Follows w f u v s s := ⟨[], by simp, rfl⟩

theorem Follows.trans {s t r : St σ α} (h1 : Follows w f u v s t) (h2 : Follows w f u v t r) : Follows w f u v s r := by
  obtain ⟨E, h1, h3⟩ := h1
  obtain ⟨F, h2, h4⟩ := h2
  exact ⟨E ++ F, by rw [h2, h1, List.append_assoc], by rw [h4, h3, List.foldl_append]⟩

theorem Follows.bind {β γ : Type} {m : M σ α β} {g : β → M σ α γ} (h1 : ∀ s, Follows w f u v s (m s).2)
    (h2 : ∀ b s, Follows w f u v s (g b s).2) : ∀ s, Follows w f u v s (m.bind g s).2 := by
  intro s
  unfold M.bind
  have := h1 s
  rcases h : m s with ⟨r, s'⟩
  rw [h] at this
  cases r with
  | ok b => exact this.trans (h2 b s')
  | err => exact this
  | panic => exact this

theorem Follows.deferred {β : Type} {m : M σ α β} {l : M σ α Unit} (h1 : ∀ s, Follows w f u v s (m s).2)
    (h2 : ∀ s, Follows w f u v s (l s).2) : ∀ s, Follows w f u v s (M.deferred m l s).2 := fun s => (h1 s).trans (h2 _)

theorem Follows.request {s : St σ α} {m : M σ α (Decrypted σ)} {g : Decrypted σ → M σ α Unit} (l : Decrypted σ → δ → δ)
    (hk : f (m s).2.d = f s.d)
    (hm : ((m s).2.sent = s.sent ∧ ∀ r, (m s).1 ≠ .ok r) ∨ ∃ e : Sent σ, (m s).2.sent = s.sent ++ [e] ∧ (m s).1 = e.reply ∧
      learnWith w u v (f s.d) e = match e.reply with
        | .ok x => l x (f s.d)
        | _ => f s.d)
    (hg : ∀ x, Keeps (fun s => s.sent) (g x)) (hl : ∀ x t, f (g x t).2.d = l x (f t.d)) :
    Follows w f u v s (m.bind g s).2 := by
  rcases hm with ⟨h1, h2⟩ | ⟨e, h1, h2, h4⟩
  · rw [(M.bind_notOk h2).1]
    exact ⟨[], by rw [h1]; simp, hk⟩
  · refine ⟨[e], ?_, ?_⟩
    all_goals
      cases hr : e.reply with
      | ok x =>
        rw [hr] at h2 h4
        rw [M.bind_of_ok h2]
        first
        | exact ((hg x) _).trans h1
        | (rw [hl x, hk]; exact h4.symm)
      | err =>
        rw [hr] at h2 h4
        rw [(M.bind_notOk (by rw [h2]; simp)).1]
        first
        | exact h1
        | (rw [hk]; exact h4.symm)
      | panic =>
        rw [hr] at h2 h4
        rw [(M.bind_notOk (by rw [h2]; simp)).1]
        first
        | exact h1
        | (rw [hk]; exact h4.symm)

theorem Part.exchange (h : Part w f u v) {k : Kind} (segs : List (Option Seg)) (x : Version) (hk : k = .job ∨ k = .end_)
    (s : St σ α) : Follows w f u v s (exchange w k segs x s).2 := by
  obtain ⟨h1, _, ⟨_, h2, _⟩ | ⟨_, e, h2, _, h3⟩⟩ := exchange_spec w k segs x s
  · exact ⟨[], by simpa using h2, by rw [h1, h.count]; rfl⟩
  · refine ⟨[e], h2, ?_⟩
    rw [h1, h.count]
    simp only [List.foldl_cons, List.foldl_nil]
    unfold learnWith
    rw [h3.kind]
    rcases hk with rfl | rfl <;> rfl

theorem Part.exchangePlain (h : Part w f u v) {k : Kind} (segs : List (Option Seg)) (x : Version) (hk : k = .job ∨ k = .end_)
    (s : St σ α) : Follows w f u v s (exchangePlain w k segs x s).2 := by
  obtain ⟨h1, _, ⟨_, h2, _⟩ | ⟨_, e, h2, _, _, h3⟩⟩ := exchangePlain_spec w k segs x s
  · exact ⟨[], by simpa using h2, by rw [h1, h.count]; rfl⟩
  · refine ⟨[e], h2, ?_⟩
    rw [h1, h.count]
    simp only [List.foldl_cons, List.foldl_nil]
    unfold learnWith
    rw [h3.kind]
    rcases hk with rfl | rfl <;> rfl

theorem Part.start (h : Part w f u v) (d : Dialog σ α) : f { d with dialogId := c!"0", messageCount := 0 } = f d := by
  have : { d with dialogId := c!"0", messageCount := 0 } = { { d with dialogId := c!"0" } with messageCount := 0 } := rfl
  rw [this, h.count, h.dialogId]

theorem Part.open_ (h : Part w f u v) (s : St σ α) : Follows w f u v s (open_ w s).2 := by
  have he : Dialog.open_ w s = ((Dialog.exchange w .init (initSegments s.d) s.d.version).bind fun m => opened w m)
      { s with d := { s.d with dialogId := c!"0", messageCount := 0 } } := rfl
  rw [he]
  obtain ⟨h1, _, h2⟩ := exchange_spec w .init (initSegments s.d) s.d.version
    { s with d := { s.d with dialogId := c!"0", messageCount := 0 } }
  have key : Follows w f u v { s with d := { s.d with dialogId := c!"0", messageCount := 0 } }
      (((Dialog.exchange w .init (initSegments s.d) s.d.version).bind fun m => opened w m)
        { s with d := { s.d with dialogId := c!"0", messageCount := 0 } }).2 := by
    refine Follows.request (fun m k => if m.header.dialogId = none then k else u m k) (by rw [h1, h.count]) ?_
      (fun m s => congrArg (fun x => x.1) (opened_outer w m s)) ?_
    · rcases h2 with ⟨_, h2, h3⟩ | ⟨_, e, h2, h3, h4⟩
      · exact Or.inl ⟨h2, h3⟩
      · refine Or.inr ⟨e, h2, h3, ?_⟩
        unfold learnWith
        rw [h4.kind]
        cases e.reply <;> rfl
    · intro m t
      rw [opened_eq]
      exact h.opening m _ (.bind (.lift _) fun _ => .bind (.lift _) fun _ => h.updateSecurityFunction m) t
  obtain ⟨E, k1, k2⟩ := key
  exact ⟨E, k1, by rw [k2, h.start]⟩

theorem Part.anonymousInit (h : Part w f u v) (s : St σ α) : Follows w f u v s (anonymousInit w s).2 := by
  have he : Dialog.anonymousInit w s =
      ((Dialog.exchangePlain w .init (anonymousSegments s.d) s.d.version).bind fun m => anonymousOpened w m)
      { s with d := { s.d with dialogId := c!"0", messageCount := 0 } } := rfl
  rw [he]
  obtain ⟨h1, _, h2⟩ := exchangePlain_spec w .init (anonymousSegments s.d) s.d.version
    { s with d := { s.d with dialogId := c!"0", messageCount := 0 } }
  have key : Follows w f u v { s with d := { s.d with dialogId := c!"0", messageCount := 0 } }
      (((Dialog.exchangePlain w .init (anonymousSegments s.d) s.d.version).bind fun m => anonymousOpened w m)
        { s with d := { s.d with dialogId := c!"0", messageCount := 0 } }).2 := by
    refine Follows.request (fun m k => if m.header.dialogId = none then k else u m k) (by rw [h1, h.count]) ?_
      (fun m s => congrArg (fun x => x.1) (anonymousOpened_outer w m s)) ?_
    · rcases h2 with ⟨_, h2, h3⟩ | ⟨_, e, h2, h3, _, h4⟩
      · exact Or.inl ⟨h2, h3⟩
      · refine Or.inr ⟨e, h2, h3, ?_⟩
        unfold learnWith
        rw [h4.kind]
        cases e.reply <;> rfl
    · intro m t
      have : anonymousOpened w m = (Dialog.takeDialogId m).bind fun _ => (parseBoth w m).bind fun _ =>
          (M.lift (announcement w m)).bind fun _ => M.lift (checkAcks m) := by
        unfold anonymousOpened parseBoth
        simp only [M.bind_assoc]
      rw [this]
      exact h.opening m _ (.bind (.lift _) fun _ => .lift _) t
  obtain ⟨E, k1, k2⟩ := key
  exact ⟨E, k1, by rw [k2, h.start]⟩

theorem Part.end_ (h : Part w f u v) (s : St σ α) : Follows w f u v s (end_ w s).2 :=
  Follows.bind (m := Dialog.exchange w .end_ [some (dialogEndSeg s.d.dialogId)] s.d.version)
    (g := fun m => M.lift (checkAcks m)) (h.exchange _ _ (Or.inr rfl)) (fun _ s => .refl s) s

theorem Part.anonymousEnd (h : Part w f u v) (s : St σ α) : Follows w f u v s (anonymousEnd w s).2 :=
  Follows.bind (m := Dialog.exchangePlain w .end_ [some (dialogEndSeg s.d.dialogId)] s.d.version)
    (g := fun m => M.lift (checkAcks m)) (h.exchangePlain _ _ (Or.inr rfl)) (fun _ s => .refl s) s

theorem Part.sync (h : Part w f u v) (s : St σ α) : Follows w f u v s (syncClientSystemId w s).2 := by
  rw [sync_eq]
  have h' : ∀ s, Follows w f u v s (((syncRequest w).bind fun m => Dialog.synced w m) s).2 := by
    intro s
    obtain ⟨h1, _, h2⟩ := syncRequest_spec w s
    refine Follows.request (fun m k => match (assignable w m).bind fun _ => assignedId w m with
      | .ok id => u m (v id k)
      | _ => k) (by rw [h1, h.count]; exact h.crypto _ _) ?_
      (fun m s => congrArg (fun x => x.1) (synced_spec w m s).logs) (fun m t => h.synced m t)
    rcases h2 with ⟨_, h2, h3⟩ | ⟨_, e, h2, h3, h4⟩
    · exact Or.inl ⟨h2, h3⟩
    · refine Or.inr ⟨e, h2, h3, ?_⟩
      unfold learnWith
      rw [h4.kind]
      cases e.reply <;> rfl
  have he : ((syncRequest w).bind fun m => (Dialog.synced w m).bind fun _ => (Dialog.end_ w).bind fun _ =>
        fun s => (.ok s.d.clientSystemId, s)) =
      (((syncRequest w).bind fun m => Dialog.synced w m).bind fun _ => (Dialog.end_ w).bind fun _ =>
        fun s : St σ α => (Outcome.ok s.d.clientSystemId, s)) := by
    simp only [M.bind_assoc]
  rw [he]
  exact Follows.bind h' (fun _ => Follows.bind h.end_ fun _ s => .refl s) s

theorem Part.run (h : Part w f u v) (c : Call) (s : St σ α) : Follows w f u v s (run w c s).2 := by
  have hl : ∀ {β : Type} (o : Outcome β) (s : St σ α), Follows w f u v s (M.lift o s).2 := fun _ s => .refl s
  have hens : ∀ s, Follows w f u v s (ensureClientSystemId w s).2 := by
    intro s
    rw [ensure_state]
    split
    · exact h.sync s
    · exact .refl s
  have hinit : ∀ s, Follows w f u v s (init w s).2 := Follows.bind hens fun _ => h.open_
  have hjob : ∀ j s, Follows w f u v s (job w j s).2 := fun j =>
    Follows.bind (h.exchange _ _ (Or.inl rfl)) fun _ => Follows.bind (hl _) fun _ => hl _
  have hajob : ∀ j s, Follows w f u v s (anonymousJob w j s).2 := fun j =>
    Follows.bind (h.exchangePlain _ _ (Or.inl rfl)) fun _ => Follows.bind (hl _) fun _ => hl _
  cases c with
  | send j => exact Follows.bind hinit (fun _ => Follows.deferred (hjob j) h.end_) s
  | sendAnonymous j => exact Follows.bind h.anonymousInit (fun _ => Follows.deferred (hajob j) h.anonymousEnd) s
  | sync => exact h.sync s
  | syncUser => exact Follows.bind hinit (fun _ => Follows.deferred (hl _) h.end_) s
  | setPin p =>
    refine ⟨[], by simp [Dialog.run, void, setPin, M.modify], ?_⟩
    exact (h.crypto { s.d with sig := signatureProvider w s.d.bankId s.d.userId p s.d.clientSystemId } _).trans (h.sig s.d _)

theorem Part.history (h : Part w f u v) (cs : List Call) : ∀ s : St σ α, Follows w f u v s (runAll w cs s) := by
  induction cs with
  | nil => exact fun s => .refl s
  | cons c cs ih => exact fun s => (h.run c s).trans (ih _)

end Verif.Dialog

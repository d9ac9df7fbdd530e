import Verif.Dialog.Shape

/-
What each call of the dialog does, as far as the log, the numbers, the IDs and the
accounts are concerned; and how this adds up over a history of calls.
-/

namespace Verif.Dialog

open GoLib Element Element.Spec Segment Message Domain Transport

variable {σ α : Type}

/-! ## Sequencing -/

theorem M.bind_assoc {β γ δ : Type} (m : M σ α β) (f : β → M σ α γ) (g : γ → M σ α δ) :
    (m.bind f).bind g = m.bind fun b => (f b).bind g := by
  funext s
  unfold M.bind
  rcases m s with ⟨r, s'⟩
  cases r <;> rfl

theorem M.bind_notOk {β γ : Type} {m : M σ α β} {f : β → M σ α γ} {s : St σ α} (h : ∀ b, (m s).1 ≠ .ok b) :
    (m.bind f s).2 = (m s).2 ∧ (∀ c, (m.bind f s).1 ≠ .ok c) ∧ ((m.bind f s).1 = .panic ↔ (m s).1 = .panic) := by
  unfold M.bind
  rcases hm : m s with ⟨r, s'⟩
  rw [hm] at h
  cases r with
  | ok b => exact absurd rfl (h b)
  | err => simp
  | panic => simp

theorem M.bind_of_ok {β γ : Type} {m : M σ α β} {f : β → M σ α γ} {s : St σ α} {b : β} (h : (m s).1 = .ok b) :
    m.bind f s = f b (m s).2 := by
  unfold M.bind
  rcases hm : m s with ⟨r, s'⟩
  rw [hm] at h
  simp only at h
  subst h
  rfl

/-! ## What the answers say, independently of the state -/

/-- The readable accounts up to the first that is not. -/
def accountPrefix (w : World σ α) : List (Decoded σ) → List α
  | [] => []
  | x :: xs =>
    match viewOf w.views.account x with
    | .ok a => a :: accountPrefix w xs
    | _ => []

/-- All accounts can be read. -/
def accountsReadable (w : World σ α) : List (Decoded σ) → Outcome Unit
  | [] => .ok ()
  | x :: xs => (viewOf w.views.account x).bind fun _ => accountsReadable w xs

theorem accountsReadable_ok (w : World σ α) (xs : List (Decoded σ)) :
    accountsReadable w xs = .ok () ↔ List.Forall₂ (fun x a => viewOf w.views.account x = .ok a) xs (accountPrefix w xs) := by
  induction xs with
  | nil => simp [accountsReadable, accountPrefix]
  | cons x xs ih =>
    unfold accountsReadable accountPrefix
    cases h : viewOf w.views.account x with
    | ok a => simp [Outcome.bind, ih, h]
    | err => simp [Outcome.bind]
    | panic => simp [Outcome.bind]

theorem parseAccounts_spec (w : World σ α) (xs : List (Decoded σ)) : ∀ s : St σ α,
    (parseAccounts w xs s).2.d.accounts = s.d.accounts ++ accountPrefix w xs ∧
    (parseAccounts w xs s).1 = accountsReadable w xs := by
  induction xs with
  | nil => intro s; simp [parseAccounts, M.lift, accountPrefix, accountsReadable]
  | cons x xs ih =>
    intro s
    unfold parseAccounts M.bind M.lift accountPrefix accountsReadable
    cases h : viewOf w.views.account x with
    | ok a =>
      simp only [M.modify]
      obtain ⟨h1, h2⟩ := ih { s with d := { s.d with accounts := s.d.accounts ++ [a] } }
      exact ⟨by rw [h1]; simp, by rw [h2]; rfl⟩
    | err => simp [Outcome.bind]
    | panic => simp [Outcome.bind]

/-- HIBPA, the list of segments, and HIPINS can be read. -/
def bankReadable (w : World σ α) (m : Decrypted σ) : Outcome Unit :=
  match find m c!"HIBPA" with
  | none => .ok ()
  | some b =>
    m.supportedSegments.bind fun _ => (viewOf w.views.bankParameters b).bind fun _ =>
      match find m c!"HIPINS" with
      | none => .ok ()
      | some p => (viewOf w.views.pinTan p).map' fun _ => ()

theorem parseBank_result (w : World σ α) (m : Decrypted σ) (s : St σ α) :
    (parseBankParameterData w m s).1 = bankReadable w m := by
  unfold parseBankParameterData bankReadable
  cases find m c!"HIBPA" with
  | none => rfl
  | some b =>
    simp only [M.bind, M.lift, M.modify]
    cases m.supportedSegments with
    | err => rfl
    | panic => rfl
    | ok ss =>
      cases viewOf w.views.bankParameters b with
      | err => rfl
      | panic => rfl
      | ok p =>
        unfold parsePinTan
        cases find m c!"HIPINS" with
        | none => rfl
        | some q =>
          simp only [M.bind, M.lift, M.modify, Outcome.bind]
          cases viewOf w.views.pinTan q <;> rfl

/-- HIUPA can be read. -/
def userReadable (w : World σ α) (m : Decrypted σ) : Outcome Unit :=
  match find m c!"HIUPA" with
  | none => .ok ()
  | some u => (viewOf w.views.userParameters u).map' fun _ => ()

theorem parseUser_result (w : World σ α) (m : Decrypted σ) (s : St σ α) :
    (parseUser w m s).1 = userReadable w m := by
  unfold parseUser userReadable
  cases find m c!"HIUPA" with
  | none => rfl
  | some u =>
    simp only [M.bind, M.lift, M.modify]
    cases viewOf w.views.userParameters u <;> rfl

/-- The security functions can be negotiated: either nothing is announced, or something
both announced and described. -/
def negotiable (w : World σ α) (m : Decrypted σ) : Outcome Unit :=
  if (find m c!"HITANS").isNone || (securityAck m).isNone then .ok ()
  else (supportedFunctions w m).bind fun fs => if fs = [] then .err else .ok ()

theorem updateSecurityFunction_result (w : World σ α) (m : Decrypted σ) (s : St σ α) :
    (updateSecurityFunction w m s).1 = negotiable w m := by
  unfold updateSecurityFunction negotiable
  split
  · rfl
  · cases supportedFunctions w m with
    | err => rfl
    | panic => rfl
    | ok fs =>
      simp only [Outcome.bind]
      by_cases hf : fs = []
      · subst hf; simp
      · have : (w.env s.step).mapOrder % fs.length < fs.length := Nat.mod_lt _ (List.length_pos_iff.2 hf)
        rw [List.getElem?_eq_getElem this]
        simp [hf]

/-- The dialog ID of an answer; none is a panic. -/
def dialogIdOf (m : Decrypted σ) : Outcome Unit :=
  match m.header.dialogId with
  | none => .panic
  | some _ => .ok ()

theorem takeDialogId_result (m : Decrypted σ) (s : St σ α) : (takeDialogId m s).1 = dialogIdOf m := by
  unfold takeDialogId dialogIdOf
  cases m.header.dialogId <;> rfl

/-- Whether the parameters in an answer can be read. -/
def parametersReadable (w : World σ α) (m : Decrypted σ) : Outcome Unit :=
  (bankReadable w m).bind fun _ => (userReadable w m).bind fun _ => accountsReadable w (m.segments c!"HIUPD")

/-- Whether the answer to an initialisation is accepted. -/
def acceptable (w : World σ α) (m : Decrypted σ) : Outcome Unit :=
  (dialogIdOf m).bind fun _ => (parametersReadable w m).bind fun _ =>
      (announcement w m).bind fun _ => (checkAcks m).bind fun _ => negotiable w m

/-- The accounts gained by reading the parameters in an answer. -/
def accountsIn (w : World σ α) (m : Decrypted σ) : List α :=
  match (bankReadable w m).bind fun _ => userReadable w m with
  | .ok _ => accountPrefix w (m.segments c!"HIUPD")
  | _ => []

/-- The accounts gained by the answer to an initialisation. -/
def gainedByInit (w : World σ α) (m : Decrypted σ) : List α :=
  match dialogIdOf m with
  | .ok _ => accountsIn w m
  | _ => []

theorem parseBank_accounts (w : World σ α) (m : Decrypted σ) : Keeps (fun s => s.d.accounts) (parseBankParameterData w m) := by
  unfold parseBankParameterData
  cases find m c!"HIBPA" with
  | none => exact .lift _
  | some p =>
    refine .bind (.lift _) fun _ => .bind (.modify fun _ => rfl) fun _ => .bind (.lift _) fun _ =>
      .bind (.modify fun _ => rfl) fun _ => .bind ?_ fun _ => .modify fun _ => rfl
    unfold parsePinTan
    cases find m c!"HIPINS" with
    | none => exact .lift _
    | some p => exact .bind (.lift _) fun _ => .modify fun _ => rfl

theorem parseUser_accounts (w : World σ α) (m : Decrypted σ) : Keeps (fun s => s.d.accounts) (parseUser w m) := by
  unfold parseUser
  cases find m c!"HIUPA" with
  | none => exact .lift _
  | some p => exact .bind (.lift _) fun _ => .modify fun _ => rfl

/-- Reading all parameters, as one step. -/
def parseBoth (w : World σ α) (m : Decrypted σ) : M σ α Unit :=
  (parseBankParameterData w m).bind fun _ => parseUserParameterData w m

theorem parseBoth_spec (w : World σ α) (m : Decrypted σ) (s : St σ α) :
    (parseBoth w m s).1 = parametersReadable w m ∧ (parseBoth w m s).2.d.accounts = s.d.accounts ++ accountsIn w m := by
  have h1 := parseBank_result w m s
  have h2 := parseBank_accounts w m s
  unfold parseBoth parametersReadable accountsIn M.bind
  rcases hb : parseBankParameterData w m s with ⟨r, t⟩
  rw [hb] at h1 h2
  simp only at h1 h2
  rw [← h1]
  cases r with
  | err => simp [Outcome.bind, h2]
  | panic => simp [Outcome.bind, h2]
  | ok _ =>
    have h3 := parseUser_result w m t
    have h4 := parseUser_accounts w m t
    simp only [Outcome.bind]
    unfold parseUserParameterData M.bind
    rcases hu : parseUser w m t with ⟨q, t'⟩
    rw [hu] at h3 h4
    simp only at h3 h4
    rw [← h3]
    cases q with
    | err => simp [h4, h2]
    | panic => simp [h4, h2]
    | ok _ =>
      obtain ⟨h5, h6⟩ := parseAccounts_spec w (m.segments c!"HIUPD") t'
      simp [h5, h6, h4, h2]

theorem parseBoth_core (w : World σ α) (m : Decrypted σ) : Keeps core (parseBoth w m) :=
  .bind (parseBank_core w m) fun _ => parseUPD_core w m

theorem M.bind_result {β γ : Type} {m : M σ α β} {f : β → M σ α γ} {s : St σ α} {o : Outcome β} (g : β → Outcome γ)
    (h : (m s).1 = o) (hf : ∀ b, o = .ok b → (f b (m s).2).1 = g b) : (m.bind f s).1 = o.bind g := by
  unfold M.bind
  rcases hm : m s with ⟨r, t⟩
  rw [hm] at h hf
  simp only at h hf
  subst h
  cases r with
  | ok b => exact hf b rfl
  | err => rfl
  | panic => rfl

theorem opened_eq (w : World σ α) (m : Decrypted σ) :
    opened w m = (takeDialogId m).bind fun _ => (parseBoth w m).bind fun _ =>
      (M.lift (announcement w m)).bind fun _ => (M.lift (checkAcks m)).bind fun _ => updateSecurityFunction w m := by
  unfold opened parseBoth
  simp only [M.bind_assoc]

theorem opened_result (w : World σ α) (m : Decrypted σ) (s : St σ α) : (opened w m s).1 = acceptable w m := by
  rw [opened_eq]
  unfold acceptable
  refine M.bind_result _ (takeDialogId_result m s) fun _ _ => ?_
  refine M.bind_result _ (parseBoth_spec w m _).1 fun _ _ => ?_
  refine M.bind_result _ rfl fun _ _ => ?_
  exact M.bind_result _ rfl fun _ _ => updateSecurityFunction_result w m _

theorem updateSecurityFunction_accounts (w : World σ α) (m : Decrypted σ) :
    Keeps (fun s => s.d.accounts) (updateSecurityFunction w m) := by
  intro s
  rcases updateSecurityFunction_spec w m s with h | ⟨fn, _, _, _, h⟩ <;> rw [h]
  rfl

theorem takeDialogId_accounts (m : Decrypted σ) : Keeps (α := α) (fun s => s.d.accounts) (takeDialogId m) := by
  intro s
  unfold takeDialogId
  cases m.header.dialogId <;> rfl

theorem opened_accounts (w : World σ α) (m : Decrypted σ) (s : St σ α) :
    (opened w m s).2.d.accounts = s.d.accounts ++ gainedByInit w m := by
  rw [opened_eq]
  have h1 := takeDialogId_result m s
  have h2 := takeDialogId_accounts m s
  unfold gainedByInit
  by_cases hd : dialogIdOf m = .ok ()
  · rw [hd] at h1 ⊢
    rw [M.bind_of_ok h1]
    have h4 := (parseBoth_spec w m (takeDialogId m s).2).2
    rw [show (takeDialogId m s).2.d.accounts = s.d.accounts from h2] at h4
    rw [← h4]
    unfold M.bind
    rcases parseBoth w m (takeDialogId m s).2 with ⟨r, t⟩
    cases r with
    | err => rfl
    | panic => rfl
    | ok _ =>
      exact Keeps.bind (f := fun s : St σ α => s.d.accounts) (.lift (announcement w m)) (fun _ =>
        .bind (.lift (checkAcks m)) fun _ => updateSecurityFunction_accounts w m) t
  · have hn : ∀ b, (takeDialogId m s).1 ≠ .ok b := by rw [h1]; intro b hb; exact hd hb
    rw [(M.bind_notOk hn).1]
    have : (takeDialogId m s).2.d.accounts = s.d.accounts := h2
    rw [this]
    cases hx : dialogIdOf m with
    | ok b => exact absurd hx hd
    | err => simp
    | panic => simp

/-! ## Synchronisation as a whole -/

/-- What `SyncClientSystemID` makes of the answer, before the dialog end. -/
def synced (w : World σ α) (m : Decrypted σ) : M σ α Unit :=
  (takeDialogId m).bind fun _ => (M.lift (checkAcks m)).bind fun _ => (updateSecurityFunction w m).bind fun _ =>
    (takeClientSystemId w m).bind fun _ => parseBoth w m

theorem sync_eq (w : World σ α) : syncClientSystemId w =
    (syncRequest w).bind fun m => (synced w m).bind fun _ => (end_ w).bind fun _ => fun s => (.ok s.d.clientSystemId, s) := by
  unfold syncClientSystemId synced parseBoth
  simp only [M.bind_assoc]

/-- The client system ID in an answer. -/
def assignedId (w : World σ α) (m : Decrypted σ) : Outcome Str :=
  match find m c!"HISYN" with
  | none => .err
  | some x => viewOf w.views.clientSystemId x

/-- What has to be right before the client system ID is taken. -/
def assignable (w : World σ α) (m : Decrypted σ) : Outcome Unit :=
  (dialogIdOf m).bind fun _ => (checkAcks m).bind fun _ => negotiable w m

/-- Whether the answer to a synchronisation is accepted. -/
def syncAcceptable (w : World σ α) (m : Decrypted σ) : Outcome Unit :=
  (assignable w m).bind fun _ => (assignedId w m).bind fun _ => parametersReadable w m

/-- The accounts gained by the answer to a synchronisation. -/
def gainedBySync (w : World σ α) (m : Decrypted σ) : List α :=
  match (assignable w m).bind fun _ => assignedId w m with
  | .ok _ => accountsIn w m
  | _ => []

theorem takeClientSystemId_spec (w : World σ α) (m : Decrypted σ) (s : St σ α) :
    (∃ id, assignedId w m = .ok id ∧ takeClientSystemId w m s = (.ok (), { s with d := setClientSystemId id s.d })) ∨
    (∃ o : Outcome Unit, o ≠ .ok () ∧ (∀ id, assignedId w m ≠ .ok id) ∧ (o = .panic ↔ assignedId w m = .panic) ∧
      takeClientSystemId w m s = (o, s)) := by
  unfold takeClientSystemId assignedId
  cases find m c!"HISYN" with
  | none => right; exact ⟨.err, by simp, by simp, by simp, rfl⟩
  | some x =>
    simp only [M.bind, M.lift, M.modify]
    cases viewOf w.views.clientSystemId x with
    | ok id => left; exact ⟨id, rfl, rfl⟩
    | err => right; exact ⟨.err, by simp, by simp, by simp, rfl⟩
    | panic => right; exact ⟨.panic, by simp, by simp, by simp, rfl⟩

/-- What does not depend on answers at all: the log, the clock, the counter, who talks to
whom in which version, and the keys. -/
def logs (s : St σ α) :=
  (s.sent, s.step, s.d.messageCount, s.d.version, s.d.bankId, s.d.userId, s.d.sig.key, s.d.crypto.key, s.d.sig.controlRef)

theorem logs_of_outer {s t : St σ α} (h : outer s = outer t) : logs s = logs t := by
  unfold outer at h
  simp only [Prod.mk.injEq] at h
  obtain ⟨h1, h2, h3, h4⟩ := h
  obtain ⟨k1, k2, k3, k4, k5⟩ := frame_sig h4
  unfold frame at h4
  simp only [Prod.mk.injEq] at h4
  unfold logs
  simp only [Prod.mk.injEq]
  tauto

/-- The three places the client system ID is kept in. -/
def ids (s : St σ α) := (s.d.clientSystemId, s.d.sig.clientSystemId, s.d.crypto.clientSystemId)

theorem ids_of_outer {s t : St σ α} (h : outer s = outer t) : ids s = ids t := by
  unfold outer at h
  simp only [Prod.mk.injEq] at h
  obtain ⟨h1, h2, h3, h4⟩ := h
  obtain ⟨k1, k2, k3, k4, k5⟩ := frame_sig h4
  unfold frame at h4
  simp only [Prod.mk.injEq] at h4
  unfold ids
  simp only [Prod.mk.injEq]
  tauto

/-- The first part of `synced`. -/
def checked (w : World σ α) (m : Decrypted σ) : M σ α Unit :=
  (takeDialogId m).bind fun _ => (M.lift (checkAcks m)).bind fun _ => updateSecurityFunction w m

theorem synced_eq (w : World σ α) (m : Decrypted σ) : synced w m =
    (checked w m).bind fun _ => (takeClientSystemId w m).bind fun _ => parseBoth w m := by
  unfold synced checked
  simp only [M.bind_assoc]

theorem checked_result (w : World σ α) (m : Decrypted σ) (s : St σ α) : (checked w m s).1 = assignable w m := by
  unfold checked assignable
  refine M.bind_result _ (takeDialogId_result m s) fun _ _ => ?_
  exact M.bind_result _ rfl fun _ _ => updateSecurityFunction_result w m _

theorem checked_outer (w : World σ α) (m : Decrypted σ) : Keeps outer (checked w m) :=
  .bind (takeDialogId_outer m) fun _ => .bind (.lift _) fun _ => updateSecurityFunction_outer w m

theorem checked_accounts (w : World σ α) (m : Decrypted σ) : Keeps (fun s => s.d.accounts) (checked w m) :=
  .bind (takeDialogId_accounts m) fun _ => .bind (.lift _) fun _ => updateSecurityFunction_accounts w m

theorem updateSecurityFunction_dialogId (w : World σ α) (m : Decrypted σ) :
    Keeps (fun s => s.d.dialogId) (updateSecurityFunction w m) := by
  intro s
  rcases updateSecurityFunction_spec w m s with h | ⟨fn, _, _, _, h⟩ <;> rw [h]
  rfl

theorem takeDialogId_dialogId (m : Decrypted σ) (s : St σ α) :
    (takeDialogId m s).2.d.dialogId = m.header.dialogId.getD s.d.dialogId := by
  unfold takeDialogId
  cases m.header.dialogId <;> rfl

theorem bind_value {β γ δ : Type} {f : St σ α → δ} {m : M σ α β} {g : β → M σ α γ} {s : St σ α} {v : δ}
    (h : f (m s).2 = v) (hg : ∀ b, Keeps f (g b)) : f ((m.bind g) s).2 = v := by
  unfold M.bind
  rcases hm : m s with ⟨r, t⟩
  rw [hm] at h
  cases r with
  | ok b => exact (hg b t).trans h
  | err => exact h
  | panic => exact h

theorem checked_dialogId (w : World σ α) (m : Decrypted σ) (s : St σ α) :
    (checked w m s).2.d.dialogId = m.header.dialogId.getD s.d.dialogId :=
  bind_value (f := fun s : St σ α => s.d.dialogId) (takeDialogId_dialogId m s) fun _ =>
    .bind (.lift _) fun _ => updateSecurityFunction_dialogId w m

theorem Keeps.field_of_mid {β : Type} {m : M σ α β} (h : Keeps mid m) : Keeps (fun s => s.d.dialogId) m :=
  fun s => congrArg Prod.fst (h s)

theorem opened_dialogId (w : World σ α) (m : Decrypted σ) (s : St σ α) :
    (opened w m s).2.d.dialogId = m.header.dialogId.getD s.d.dialogId := by
  rw [opened_eq]
  exact bind_value (f := fun s : St σ α => s.d.dialogId) (takeDialogId_dialogId m s) fun _ =>
    .bind (parseBoth_core w m).mid_of_core.field_of_mid fun _ => .bind (.lift _) fun _ =>
      .bind (.lift _) fun _ => updateSecurityFunction_dialogId w m

structure Synced (w : World σ α) (m : Decrypted σ) (s : St σ α) (r : Outcome Unit × St σ α) : Prop where
  result : r.1 = syncAcceptable w m
  logs : logs r.2 = logs s
  accounts : r.2.d.accounts = s.d.accounts ++ gainedBySync w m
  dialogId : r.2.d.dialogId = m.header.dialogId.getD s.d.dialogId
  ids : (ids r.2 = ids s ∧ ∀ id, ((assignable w m).bind fun _ => assignedId w m) ≠ .ok id) ∨
    ∃ id, ((assignable w m).bind fun _ => assignedId w m) = .ok id ∧ ids r.2 = (id, id, id)

theorem synced_spec (w : World σ α) (m : Decrypted σ) (s : St σ α) : Synced w m s (synced w m s) := by
  rw [synced_eq]
  have h1 := checked_result w m s
  have h2 := checked_outer w m s
  have h3 : (checked w m s).2.d.accounts = s.d.accounts := checked_accounts w m s
  have h4 := checked_dialogId w m s
  by_cases ha : assignable w m = .ok ()
  · rw [ha] at h1
    rw [M.bind_of_ok h1]
    generalize (checked w m s).2 = t at *
    rcases takeClientSystemId_spec w m t with ⟨id, hi, ht⟩ | ⟨o, ho, hi, hp, ht⟩
    · have hb : (takeClientSystemId w m t).1 = .ok () := by rw [ht]
      rw [M.bind_of_ok hb, ht]
      simp only
      obtain ⟨q1, q2⟩ := parseBoth_spec w m { t with d := setClientSystemId id t.d }
      have q3 := (parseBoth_core w m).outer_of_core { t with d := setClientSystemId id t.d }
      have q4 := (parseBoth_core w m).mid_of_core { t with d := setClientSystemId id t.d }
      refine ⟨?_, ?_, ?_, ?_, Or.inr ⟨id, ?_, ?_⟩⟩
      · rw [q1, syncAcceptable, ha, hi]; rfl
      · rw [logs_of_outer q3, ← logs_of_outer h2]; rfl
      · rw [q2, gainedBySync, ha, hi]
        simp only [Outcome.bind]
        rw [← h3]; rfl
      · rw [show (parseBoth w m { t with d := setClientSystemId id t.d }).2.d.dialogId = t.d.dialogId from
          congrArg Prod.fst q4, h4]
      · rw [ha, hi]; rfl
      · rw [ids_of_outer q3]; rfl
    · have hn : ∀ b, (takeClientSystemId w m t).1 ≠ .ok b := by rw [ht]; exact fun _ => ho
      obtain ⟨k1, k2, k3⟩ := M.bind_notOk (f := fun _ => parseBoth w m) hn
      rw [ht] at k1 k3
      refine ⟨?_, ?_, ?_, ?_, Or.inl ⟨?_, ?_⟩⟩
      · unfold syncAcceptable
        rw [ha]
        simp only [Outcome.bind]
        simp only at k3
        have hx : ((takeClientSystemId w m).bind fun _ => parseBoth w m) t ≠ (.ok (), t) := fun e => k2 () (by rw [e])
        revert k2 k3 hp hi
        cases ((takeClientSystemId w m).bind fun _ => parseBoth w m) t with
        | mk r t' =>
          cases assignedId w m with
          | ok i => intro hi; exact absurd rfl (hi i)
          | err =>
            intro _ hp k2 k3
            cases r with
            | ok u => exact absurd rfl (k2 u)
            | err => rfl
            | panic => simp only [true_iff] at k3; simp [k3] at hp
          | panic =>
            intro _ hp k2 k3
            cases r with
            | ok u => exact absurd rfl (k2 u)
            | err => simp only [reduceCtorEq, false_iff] at k3; simp [k3] at hp
            | panic => rfl
      · rw [k1, logs_of_outer h2]
      · rw [k1, gainedBySync, ha]
        simp only [Outcome.bind]
        rw [h3]
        cases hx : assignedId w m with
        | ok i => exact absurd hx (hi i)
        | err => simp
        | panic => simp
      · rw [k1, h4]
      · rw [k1, ids_of_outer h2]
      · rw [ha]; exact hi
  · have hn : ∀ b, (checked w m s).1 ≠ .ok b := by rw [h1]; exact fun b hb => ha hb
    obtain ⟨k1, k2, k3⟩ := M.bind_notOk (f := fun _ => (takeClientSystemId w m).bind fun _ => parseBoth w m) hn
    have hb : ∀ {β : Type} (f : Unit → Outcome β), (∀ b, (assignable w m).bind f ≠ .ok b) ∧
        ((assignable w m).bind f = .panic ↔ assignable w m = .panic) := by
      intro β f
      cases hx : assignable w m with
      | ok i => exact absurd hx ha
      | err => simp [Outcome.bind]
      | panic => simp [Outcome.bind]
    refine ⟨?_, ?_, ?_, ?_, Or.inl ⟨?_, (hb _).1⟩⟩
    · have hy := hb (fun _ => (assignedId w m).bind fun _ => parametersReadable w m)
      rw [h1, ← hy.2] at k3
      unfold syncAcceptable
      revert k2 k3 hy
      cases ((checked w m).bind fun _ => (takeClientSystemId w m).bind fun _ => parseBoth w m) s with
      | mk r t' =>
        cases (assignable w m).bind fun _ => (assignedId w m).bind fun _ => parametersReadable w m with
        | ok i => intro _ _ hy; exact absurd rfl (hy.1 i)
        | err =>
          intro k2 k3 _
          cases r with
          | ok u => exact absurd rfl (k2 u)
          | err => rfl
          | panic => simp at k3
        | panic =>
          intro k2 k3 _
          cases r with
          | ok u => exact absurd rfl (k2 u)
          | err => simp at k3
          | panic => rfl
    · rw [k1, logs_of_outer h2]
    · rw [k1, h3, gainedBySync]
      cases hx : (assignable w m).bind fun _ => assignedId w m with
      | ok i => exact absurd hx ((hb _).1 i)
      | err => simp
      | panic => simp
    · rw [k1, h4]
    · rw [k1, ids_of_outer h2]

end Verif.Dialog

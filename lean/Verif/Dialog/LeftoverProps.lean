import Verif.Dialog.StateProps

/-
C138: what a call inherits from the calls before it.
-/

namespace Verif.Dialog

open GoLib Element Segment Message Domain Transport

variable {σ α : Type}

/-! ## Specification -/

/-- A dialog without what belongs to a single dialog with the bank, and without the accounts. -/
def cleared (d : Dialog σ α) : Dialog σ α := { d with messageCount := 0, dialogId := c!"0", accounts := [] }

/-- Two calls, started in the states `s` and `t`, did the same: they return the same, send the same messages, learn
of the same accounts, and otherwise leave the same dialog. -/
def DidTheSame {β : Type} (s t : St σ α) (a b : Outcome β × St σ α) : Prop :=
  a.1 = b.1 ∧ a.2.step = b.2.step ∧ ∃ (messages : List (Sent σ)) (accounts : List α) (d : Dialog σ α),
    a.2.sent = s.sent ++ messages ∧ b.2.sent = t.sent ++ messages ∧
    a.2.d = { d with accounts := s.d.accounts ++ accounts } ∧ b.2.d = { d with accounts := t.d.accounts ++ accounts }

/-! ## Pieces of program -/

/-- A state with more in its log and more accounts. -/
def behind (l : List (Sent σ)) (as : List α) (s : St σ α) : St σ α :=
  { s with d := { s.d with accounts := as ++ s.d.accounts }, sent := l ++ s.sent }

/-- A program that only appends to log and accounts, without looking at either. -/
def Appends {β : Type} (m : M σ α β) : Prop := ∀ l as s, m (behind l as s) = ((m s).1, behind l as (m s).2)

theorem Appends.bind {β γ : Type} {m : M σ α β} {g : β → M σ α γ} (h1 : Appends m) (h2 : ∀ b, Appends (g b)) :
    Appends (m.bind g) := by
  intro l as s
  unfold M.bind
  rw [h1 l as s]
  rcases m s with ⟨r, s'⟩
  cases r with
  | ok b => exact h2 b l as s'
  | err => rfl
  | panic => rfl

theorem Appends.lift {β : Type} (o : Outcome β) : Appends (M.lift (σ := σ) (α := α) o) := fun _ _ _ => rfl

theorem Appends.modify {f : Dialog σ α → Dialog σ α}
    (h : ∀ (as : List α) d, f { d with accounts := as ++ d.accounts } = { f d with accounts := as ++ (f d).accounts }) :
    Appends (M.modify f) := by
  intro l as s
  unfold M.modify behind
  simp only [h]

theorem Appends.deferred {β : Type} {m : M σ α β} {last : M σ α Unit} (h1 : Appends m) (h2 : Appends last) :
    Appends (M.deferred m last) := by
  intro l as s
  unfold M.deferred
  simp only [h1 l as s, h2 l as (m s).2]

/-- A program that looks at the dialog, but not at the accounts. -/
theorem Appends.look {β γ : Type} {f : Dialog σ α → γ} {m : γ → M σ α β}
    (h : ∀ (as : List α) d, f { d with accounts := as ++ d.accounts } = f d) (hm : ∀ c, Appends (m c)) :
    Appends (fun s => m (f s.d) s) := by
  intro l as s
  have e : f (behind l as s).d = f s.d := h as s.d
  simp only [e]
  exact hm _ l as s

theorem appends_newMessage (segs : List (Option Seg)) (v : Version) : Appends (newMessage (σ := σ) (α := α) segs v) :=
  fun _ _ _ => rfl

theorem appends_sign (w : World σ α) (m : BasicMessage) : Appends (sign w m) := fun _ _ _ => rfl

theorem appends_request (w : World σ α) (k : Kind) (p q : BasicMessage) : Appends (request w k p q) := by
  intro l as s
  unfold request
  cases q.marshal with
  | err => rfl
  | panic => rfl
  | ok r => simp [behind]

theorem appends_requestEncrypted (w : World σ α) (k : Kind) (m : BasicMessage) : Appends (requestEncrypted w k m) := by
  intro l as s
  unfold requestEncrypted
  simp only [behind]
  cases m.encrypt s.d.crypto (w.env s.step).encryptTime with
  | err => rfl
  | panic => rfl
  | ok e => exact appends_request w k m e.msg l as s

theorem appends_exchange (w : World σ α) (k : Kind) (segs : List (Option Seg)) (v : Version) : Appends (exchange w k segs v) :=
  (appends_newMessage segs v).bind fun m => (appends_sign w m).bind fun m => appends_requestEncrypted w k m

theorem appends_exchangePlain (w : World σ α) (k : Kind) (segs : List (Option Seg)) (v : Version) :
    Appends (exchangePlain w k segs v) :=
  (appends_newMessage segs v).bind fun _ => (Appends.lift _).bind fun m => appends_request w k m m

theorem appends_takeDialogId (m : Decrypted σ) : Appends (α := α) (takeDialogId m) := by
  intro l as s
  unfold takeDialogId
  cases m.header.dialogId <;> rfl

theorem appends_update (w : World σ α) (m : Decrypted σ) : Appends (updateSecurityFunction w m) := by
  intro l as s
  unfold updateSecurityFunction
  simp only [behind]
  split
  · rfl
  · split
    · rfl
    · rfl
    · split
      · rfl
      · rename_i i _
        by_cases h : s.d.securityFn = i
        · simp only [h, if_true]
        · simp only [h, if_false]
          rfl

theorem appends_accounts (w : World σ α) (xs : List (Decoded σ)) : Appends (parseAccounts w xs) := by
  induction xs with
  | nil => exact .lift _
  | cons x xs ih =>
    unfold parseAccounts
    exact .bind (.lift _) fun a => .bind (.modify fun as d => by simp) fun _ => ih

theorem appends_bank (w : World σ α) (m : Decrypted σ) : Appends (parseBankParameterData w m) := by
  have h : Appends (parsePinTan w m) := by
    unfold parsePinTan
    split
    · exact .lift _
    · exact .bind (.lift _) fun _ => .modify fun _ _ => rfl
  unfold parseBankParameterData
  split
  · exact .lift _
  · exact .bind (.lift _) fun _ => .bind (.modify fun _ _ => rfl) fun _ => .bind (.lift _) fun _ =>
      .bind (.modify fun _ _ => rfl) fun _ => .bind h fun _ => .modify fun _ _ => rfl

theorem appends_user (w : World σ α) (m : Decrypted σ) : Appends (parseUserParameterData w m) := by
  refine .bind ?_ fun _ => appends_accounts w _
  unfold parseUser
  split
  · exact .lift _
  · exact .bind (.lift _) fun _ => .modify fun _ _ => rfl

theorem appends_end (w : World σ α) : Appends (end_ w) :=
  .look (f := fun d => (d.dialogId, d.version))
    (m := fun c => (exchange w .end_ [some (dialogEndSeg c.1)] c.2).bind fun m => M.lift (checkAcks m)) (fun _ _ => rfl)
    fun _ => .bind (appends_exchange w _ _ _) fun _ => .lift _

theorem appends_open (w : World σ α) : Appends (open_ w) := by
  refine .bind (.modify fun _ _ => rfl) fun _ => ?_
  refine .look (f := fun d => (initSegments d, d.version))
    (m := fun c => (exchange w .init c.1 c.2).bind fun m => opened w m) (fun _ _ => rfl) fun c => ?_
  exact .bind (appends_exchange w _ _ _) fun m => (appends_takeDialogId m).bind fun _ => (appends_bank w m).bind fun _ =>
    (appends_user w m).bind fun _ => .bind (.lift _) fun _ => .bind (.lift _) fun _ => appends_update w m

theorem appends_job (w : World σ α) (j : Job) : Appends (job w j) :=
  (appends_exchange w _ _ _).bind fun _ => (Appends.lift _).bind fun _ => .lift _

theorem appends_anonymousInit (w : World σ α) : Appends (anonymousInit w) := by
  refine .bind (.modify fun _ _ => rfl) fun _ => ?_
  refine .look (f := fun d => (anonymousSegments d, d.version))
    (m := fun c => (exchangePlain w .init c.1 c.2).bind fun m => anonymousOpened w m) (fun _ _ => rfl) fun c => ?_
  exact .bind (appends_exchangePlain w _ _ _) fun m => (appends_takeDialogId m).bind fun _ => (appends_bank w m).bind fun _ =>
    (appends_user w m).bind fun _ => .bind (.lift _) fun _ => .lift _

theorem appends_anonymous (w : World σ α) (j : Job) : Appends (sendAnonymousMessage w j) := by
  refine (appends_anonymousInit w).bind fun _ => .deferred
    (.bind (appends_exchangePlain w _ _ _) fun _ => .bind (.lift _) fun _ => .lift _) ?_
  exact .look (f := fun d => (d.dialogId, d.version))
      (m := fun c => (exchangePlain w .end_ [some (dialogEndSeg c.1)] c.2).bind fun m => M.lift (checkAcks m)) (fun _ _ => rfl)
      fun _ => .bind (appends_exchangePlain w _ _ _) fun _ => .lift _

/-! ## Calls -/

/-- A program that appends, and starts with a new dialog with the bank, does the same in both states. -/
theorem didTheSame {β : Type} {m : M σ α β} (h1 : Appends m)
    (h2 : ∀ s : St σ α, m s = m { s with d := { s.d with dialogId := c!"0", messageCount := 0 } }) {s t : St σ α}
    (h : cleared s.d = cleared t.d) (hs : s.step = t.step) : DidTheSame s t (m s) (m t) := by
  have key : ∀ s : St σ α, m s = ((m ⟨cleared s.d, s.step, []⟩).1, behind s.sent s.d.accounts (m ⟨cleared s.d, s.step, []⟩).2) := by
    intro s
    rw [← h1, h2 s]
    congr 1
    simp [behind, cleared]
  rw [key s, key t, ← h, ← hs]
  exact ⟨rfl, rfl, _, _, _, rfl, rfl, rfl, rfl⟩

theorem open_starts (w : World σ α) (s : St σ α) :
    open_ w s = open_ w { s with d := { s.d with dialogId := c!"0", messageCount := 0 } } := rfl

theorem init_known {w : World σ α} {s : St σ α} (h : s.d.clientSystemId ≠ c!"0") : init w s = open_ w s := by
  unfold init ensureClientSystemId M.bind
  simp only [h, if_false]

theorem bind_starts {β γ : Type} {m : M σ α β} {g : β → M σ α γ} {s t : St σ α} (h : m s = m t) : m.bind g s = m.bind g t := by
  unfold M.bind
  rw [h]

theorem bind_starts' {β γ : Type} {m m' : M σ α β} {g : β → M σ α γ} {s : St σ α} (h : m s = m' s) : m.bind g s = m'.bind g s := by
  unfold M.bind
  rw [h]

/-! ## C138 -/

/-- C138: with a client system ID, a job does not depend on what was done before but for what the dialog is meant to
remember.  Two dialogs that agree but for the message number, the dialog ID and the accounts left behind, whatever
was sent before and whether it succeeded, send the same messages for it, return the same, and learn the same. -/
theorem C138_send (w : World σ α) (j : Job) {s t : St σ α} (hc : s.d.clientSystemId ≠ c!"0") (h : cleared s.d = cleared t.d)
    (hs : s.step = t.step) : DidTheSame s t (sendMessage w j s) (sendMessage w j t) := by
  have hc' : t.d.clientSystemId ≠ c!"0" := by
    rw [show t.d.clientSystemId = s.d.clientSystemId from (congrArg Dialog.clientSystemId h).symm]; exact hc
  have e : ∀ s : St σ α, s.d.clientSystemId ≠ c!"0" → sendMessage w j s =
      ((open_ w).bind fun _ => M.deferred (job w j) (end_ w)) s := fun s h => bind_starts' (init_known h)
  rw [e s hc, e t hc']
  exact didTheSame ((appends_open w).bind fun _ => .deferred (appends_job w j) (appends_end w))
    (fun s => bind_starts (open_starts w s)) h hs

/-- C138: so is fetching the user parameters. -/
theorem C138_user (w : World σ α) {s t : St σ α} (hc : s.d.clientSystemId ≠ c!"0") (h : cleared s.d = cleared t.d)
    (hs : s.step = t.step) : DidTheSame s t (syncUserParameterData w s) (syncUserParameterData w t) := by
  have hc' : t.d.clientSystemId ≠ c!"0" := by
    rw [show t.d.clientSystemId = s.d.clientSystemId from (congrArg Dialog.clientSystemId h).symm]; exact hc
  have e : ∀ s : St σ α, s.d.clientSystemId ≠ c!"0" → syncUserParameterData w s =
      ((open_ w).bind fun _ => M.deferred (M.lift (.ok ())) (end_ w)) s := fun s h => bind_starts' (init_known h)
  rw [e s hc, e t hc']
  exact didTheSame ((appends_open w).bind fun _ => .deferred (.lift _) (appends_end w))
    (fun s => bind_starts (open_starts w s)) h hs

/-- C138: and so is an anonymous job, with or without a client system ID. -/
theorem C138_anonymous (w : World σ α) (j : Job) {s t : St σ α} (h : cleared s.d = cleared t.d) (hs : s.step = t.step) :
    DidTheSame s t (sendAnonymousMessage w j s) (sendAnonymousMessage w j t) :=
  didTheSame (appends_anonymous w j) (fun s => bind_starts (m := anonymousInit w) rfl) h hs

namespace Sample

/-- A bank that refuses the first message, and then agrees to everything. -/
def moody : Nat → Outcome Body := fun n => if n = 1 then bad n else good n

/-- Kind, number and dialog ID of what a call sent. -/
def said (s : St Bytes Bytes) {β : Type} (r : Outcome β × St Bytes Bytes) : List (Kind × Int × Str) :=
  (r.2.sent.drop s.sent.length).map fun e => (e.kind, e.wire.header.number, e.wire.header.dialogId)

/-- A dialog in which a job failed. -/
def failed : St Bytes Bytes := runAll (world moody) [.send work] (known moody)

/-- A dialog without client system ID, in which a synchronisation failed. -/
def failedSync : St Bytes Bytes := runAll (world moody) [.sync] (fresh moody)

/-- A dialog in which nothing was sent yet, with what `s` is meant to remember. -/
def untouched (s : St Bytes Bytes) : St Bytes Bytes := ⟨cleared s.d, s.step, []⟩

theorem untouched_cleared (s : St Bytes Bytes) : cleared s.d = cleared (untouched s).d := rfl

theorem untouched_step (s : St Bytes Bytes) : s.step = (untouched s).step := rfl

theorem failed_left : failed.d.messageCount = 1 ∧ failed.d.dialogId = c!"dia1" ∧ failed.d.clientSystemId = c!"sys0" ∧
    said failed (sendMessage (world moody) work failed) =
      [(.init, 1, c!"0"), (.job, 2, c!"dia2"), (.end_, 3, c!"dia2")] := by
  decide +kernel

theorem failedSync_says : said failedSync (sendMessage (world moody) work failedSync) =
      [(.sync, 2, c!"dia1"), (.end_, 3, c!"dia2"), (.init, 1, c!"0"), (.job, 2, c!"dia4"), (.end_, 3, c!"dia4")] ∧
    said (untouched failedSync) (sendMessage (world moody) work (untouched failedSync)) =
      [(.sync, 1, c!"0"), (.end_, 2, c!"dia2"), (.init, 1, c!"0"), (.job, 2, c!"dia4"), (.end_, 3, c!"dia4")] := by
  decide +kernel

/-- What a call said, if it did the same as another. -/
theorem said_eq {β : Type} {s t : St Bytes Bytes} {a b : Outcome β × St Bytes Bytes} (h : DidTheSame s t a b) :
    said s a = said t b := by
  obtain ⟨_, _, messages, _, _, h1, h2, _⟩ := h
  unfold said
  rw [h1, h2, List.drop_left, List.drop_left]

end Sample

/-- After a job that failed, and left a message number and a dialog ID behind, the next job is sent as in a dialog
in which nothing was sent before. -/
example : DidTheSame Sample.failed (Sample.untouched Sample.failed)
    (sendMessage (Sample.world Sample.moody) Sample.work Sample.failed)
    (sendMessage (Sample.world Sample.moody) Sample.work (Sample.untouched Sample.failed)) :=
  C138_send _ _ (by rw [Sample.failed_left.2.2.1]; decide) (Sample.untouched_cleared _) (Sample.untouched_step _)

example : Sample.said (Sample.untouched Sample.failed)
    (sendMessage (Sample.world Sample.moody) Sample.work (Sample.untouched Sample.failed)) =
    [(.init, 1, c!"0"), (.job, 2, c!"dia2"), (.end_, 3, c!"dia2")] := by
  refine Eq.trans ?_ Sample.failed_left.2.2.2
  exact (Sample.said_eq (C138_send _ _ (by rw [Sample.failed_left.2.2.1]; decide) (Sample.untouched_cleared _) (Sample.untouched_step _))).symm

example : DidTheSame Sample.failed (Sample.untouched Sample.failed)
    (syncUserParameterData (Sample.world Sample.moody) Sample.failed)
    (syncUserParameterData (Sample.world Sample.moody) (Sample.untouched Sample.failed)) :=
  C138_user _ (by rw [Sample.failed_left.2.2.1]; decide) (Sample.untouched_cleared _) (Sample.untouched_step _)

/-- An anonymous job also after a synchronisation that failed, without a client system ID. -/
example : DidTheSame Sample.failedSync (Sample.untouched Sample.failedSync)
    (sendAnonymousMessage (Sample.world Sample.moody) Sample.work Sample.failedSync)
    (sendAnonymousMessage (Sample.world Sample.moody) Sample.work (Sample.untouched Sample.failedSync)) :=
  C138_anonymous _ _ (Sample.untouched_cleared _) (Sample.untouched_step _)

/-- C138: without a client system ID this fails.  A synchronisation that failed leaves its number and the dialog ID
of the bank behind, and the next one, asked for by a job, goes on with them, where a dialog in which nothing was sent
begins with number 1 and dialog ID 0. -/
theorem C138_leftover : ∃ (w : World Bytes Bytes) (j : Job) (s t : St Bytes Bytes),
    s = runAll w [.sync] (Sample.fresh Sample.moody) ∧ cleared s.d = cleared t.d ∧ s.step = t.step ∧
    ¬ DidTheSame s t (sendMessage w j s) (sendMessage w j t) := by
  refine ⟨Sample.world Sample.moody, Sample.work, Sample.failedSync, Sample.untouched Sample.failedSync, rfl,
    Sample.untouched_cleared _, Sample.untouched_step _, ?_⟩
  intro h
  have e := Sample.said_eq h
  rw [Sample.failedSync_says.1, Sample.failedSync_says.2] at e
  revert e
  decide

end Verif.Dialog

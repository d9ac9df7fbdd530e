import Verif.Dialog.History

/-
What whole calls do: synchronisation, sending, anonymous sending.
-/

namespace Verif.Dialog

open GoLib Element Element.Spec Segment Message Domain Transport

variable {σ α : Type}

/-! ## Synchronisation -/

/-- The state in which the answer to a synchronisation is looked at. -/
def afterSync (s : St σ α) (e : Sent σ) : St σ α :=
  ⟨{ resetCrypto s.d with messageCount := s.d.messageCount + 1 }, s.step + 1, s.sent ++ [e]⟩

/-- The message could not be sent. -/
structure SyncUnsent (s : St σ α) (r : Outcome Str × St σ α) : Prop where
  cannot : ¬ CanSend (resetCrypto s.d) (syncSegments s.d)
  fails : ∀ id, r.1 ≠ .ok id
  state : r.2 = ⟨{ resetCrypto s.d with messageCount := s.d.messageCount + 1 }, s.step + 1, s.sent⟩

/-- There was no readable answer. -/
structure SyncUnanswered (s : St σ α) (e : Sent σ) (r : Outcome Str × St σ α) : Prop where
  reply : ∀ m, e.reply ≠ .ok m
  fails : ∀ id, r.1 ≠ .ok id
  state : r.2 = afterSync s e

/-- The answer was not accepted. -/
structure SyncRejected (w : World σ α) (s : St σ α) (e : Sent σ) (m : Decrypted σ) (r : Outcome Str × St σ α) : Prop where
  reply : e.reply = .ok m
  rejected : syncAcceptable w m ≠ .ok ()
  fails : ∀ id, r.1 ≠ .ok id
  state : ∃ o, Synced w m (afterSync s e) (o, r.2)

/-- The answer was accepted, and the dialog end was tried. -/
structure SyncAccepted (w : World σ α) (s : St σ α) (e : Sent σ) (m : Decrypted σ) (t : St σ α)
    (r : Outcome Str × St σ α) : Prop where
  reply : e.reply = .ok m
  accepted : syncAcceptable w m = .ok ()
  before : Synced w m (afterSync s e) (.ok (), t)
  after : r.2.d = { t.d with messageCount := s.d.messageCount + 2 } ∧ r.2.step = s.step + 2
  end_ : (¬ Ready t.d ∧ (∀ id, r.1 ≠ .ok id) ∧ r.2.sent = s.sent ++ [e]) ∨
    (Ready t.d ∧ ∃ f : Sent σ, r.2.sent = s.sent ++ [e, f] ∧
      Logged w f .end_ s.d.version.number (s.d.messageCount + 2) t.d.dialogId (endSegments t.d.dialogId) ∧
      (acked f.reply = .ok () → r.1 = .ok t.d.clientSystemId) ∧ (acked f.reply ≠ .ok () → ∀ id, r.1 ≠ .ok id))

theorem sync_spec (w : World σ α) (s : St σ α) :
    SyncUnsent s (syncClientSystemId w s) ∨
    ∃ e : Sent σ, Logged w e .sync s.d.version.number (s.d.messageCount + 1) s.d.dialogId (syncSegments s.d) ∧
      (SyncUnanswered s e (syncClientSystemId w s) ∨ (∃ m, SyncRejected w s e m (syncClientSystemId w s)) ∨
        ∃ m t, SyncAccepted w s e m t (syncClientSystemId w s)) := by
  obtain ⟨h1, h2, h3⟩ := syncRequest_spec w s
  rw [sync_eq]
  rcases h3 with ⟨n, h3, h4⟩ | ⟨y, e, h3, h4, h5⟩
  · left
    obtain ⟨k1, k2, _⟩ := M.bind_notOk (f := fun m => (synced w m).bind fun _ => (end_ w).bind fun _ =>
      fun s => (.ok s.d.clientSystemId, s)) h4
    refine ⟨n, k2, ?_⟩
    rw [k1]
    rcases hx : (syncRequest w s).2 with ⟨d, st, se⟩
    rw [hx] at h1 h2 h3
    simp only at h1 h2 h3
    rw [h1, h2, h3]
  · right
    have hs : (syncRequest w s).2 = afterSync s e := by
      rcases hx : (syncRequest w s).2 with ⟨d, st, se⟩
      rw [hx] at h1 h2 h3
      simp only at h1 h2 h3
      rw [h1, h2, h3]
      rfl
    refine ⟨e, h5, ?_⟩
    by_cases hm : ∃ m, e.reply = .ok m
    · right
      obtain ⟨m, hm⟩ := hm
      rw [hm] at h4
      rw [M.bind_of_ok h4, hs]
      have hsy := synced_spec w m (afterSync s e)
      by_cases ha : syncAcceptable w m = .ok ()
      · right
        have h6 := hsy.result
        rw [ha] at h6
        rw [M.bind_of_ok h6]
        have hsy' : Synced w m (afterSync s e) (.ok (), (synced w m (afterSync s e)).2) := by
          rw [← h6]; exact hsy
        generalize (synced w m (afterSync s e)).2 = t at *
        refine ⟨m, t, hm, ha, hsy', ?_, ?_⟩
        · obtain ⟨e1, e2, _⟩ := end_spec w t
          have hl := hsy'.logs
          unfold logs at hl
          simp only [Prod.mk.injEq] at hl
          obtain ⟨l1, l2, l3, l4, _⟩ := hl
          have hk : Keeps (fun s : St σ α => (s.d, s.step)) (fun s : St σ α => (Outcome.ok s.d.clientSystemId, s)) :=
            fun _ => rfl
          have hv : (fun s : St σ α => (s.d, s.step)) (((end_ w).bind fun _ => fun s => (.ok s.d.clientSystemId, s)) t).2 = _ :=
            bind_value rfl (fun _ => hk)
          simp only [Prod.mk.injEq] at hv
          rw [hv.1, hv.2, e1, e2, l2, l3]
          refine ⟨?_, rfl⟩
          simp only [afterSync]
          rw [show s.d.messageCount + 1 + 1 = s.d.messageCount + 2 by omega]
        · obtain ⟨e1, e2, e3⟩ := end_spec w t
          have hl := hsy'.logs
          unfold logs at hl
          simp only [Prod.mk.injEq] at hl
          obtain ⟨l1, l2, l3, l4, _⟩ := hl
          have hv : (fun s : St σ α => s.sent) (((end_ w).bind fun _ => fun s => (.ok s.d.clientSystemId, s)) t).2 = _ :=
            bind_value rfl (fun _ => fun _ => rfl)
          simp only at hv
          rcases e3 with ⟨n, e4, e5⟩ | ⟨y, f, e4, e5, e6⟩
          · left
            refine ⟨n, ?_, ?_⟩
            · exact (M.bind_notOk (fun b hb => e5 hb)).2.1
            · rw [hv, e4, l1]; rfl
          · right
            refine ⟨y, f, ?_, ?_, ?_, ?_⟩
            · rw [hv, e4, l1]; simp [afterSync]
            · rw [l3, l4] at e6
              simp only [afterSync, resetCrypto] at e6
              rw [show s.d.messageCount + 1 + 1 = s.d.messageCount + 2 by omega] at e6
              exact e6
            · intro hok
              rw [hok] at e5
              refine (congrArg Prod.fst (M.bind_of_ok e5)).trans ?_
              simp only [e1]
            · intro hne
              exact (M.bind_notOk (fun b hb => hne (by rw [← e5, hb]))).2.1
      · left
        have hn : ∀ b, (synced w m (afterSync s e)).1 ≠ .ok b := by
          rw [hsy.result]; exact fun b hb => ha hb
        obtain ⟨k1, k2, _⟩ := M.bind_notOk (f := fun _ => (end_ w).bind fun _ => fun s => (.ok s.d.clientSystemId, s)) hn
        exact ⟨m, hm, ha, k2, _, by rw [k1]; exact hsy⟩
    · left
      push Not at hm
      have hn : ∀ b, (syncRequest w s).1 ≠ .ok b := by rw [h4]; exact hm
      obtain ⟨k1, k2, _⟩ := M.bind_notOk (f := fun m => (synced w m).bind fun _ => (end_ w).bind fun _ =>
        fun s => (.ok s.d.clientSystemId, s)) hn
      exact ⟨hm, k2, by rw [k1, hs]⟩

/-! ## Messages without security -/

/-- What an anonymous message needs to be sent: no PIN. -/
def CanSendPlain (d : Dialog σ α) (segs : List (Option Seg)) : Prop :=
  Latin1 d.dialogId ∧ ∀ x, some x ∈ segs → Writable x

/-- The message is sent as it is: no signature, no encryption. -/
structure Unsecured (e : Sent σ) (segs : List (Option Seg)) : Prop where
  wire : e.wire = e.plain
  unsigned : e.wire.sigBegin = none ∧ e.wire.sigEnd = none
  body : bodies (e.wire.content.getD []) = bodies segs

theorem exchangePlain_spec (w : World σ α) (k : Kind) (segs : List (Option Seg)) (v : Version) (s : St σ α) :
    (exchangePlain w k segs v s).2.d = { s.d with messageCount := s.d.messageCount + 1 } ∧
    (exchangePlain w k segs v s).2.step = s.step + 1 ∧
    ((¬ CanSendPlain s.d segs ∧ (exchangePlain w k segs v s).2.sent = s.sent ∧
        ∀ r, (exchangePlain w k segs v s).1 ≠ .ok r) ∨
     (CanSendPlain s.d segs ∧ ∃ e : Sent σ, (exchangePlain w k segs v s).2.sent = s.sent ++ [e] ∧
        (exchangePlain w k segs v s).1 = e.reply ∧ Unsecured e segs ∧
        Logged w e k s.d.version.number (s.d.messageCount + 1) s.d.dialogId segs)) := by
  unfold exchangePlain M.bind
  simp only [newMessage_ok, M.lift]
  unfold BasicMessage.setPositions
  simp only [positionOpt]
  unfold request
  obtain ⟨hb, hwr⟩ := positionAll_bodies segs 1
  rcases hp : positionAll 1 segs with ⟨segs', n⟩
  rw [hp] at hb hwr
  simp only at hb hwr ⊢
  have hm := msg_ok_iff
    { header := { newMsgHeader (-1) s.d.version.number s.d.dialogId (s.d.messageCount + 1) with position := 1 },
      end_ := { position := n + 1, number := s.d.messageCount + 1 }, sigBegin := none,
      sigEnd := none, content := some segs', version := v, cache := [] } segs' rfl rfl
  rw [msgHeader_writable] at hm
  simp only [hwr] at hm
  have hc : (∃ (b : Bytes) (m' : BasicMessage), BasicMessage.marshal
    { header := { newMsgHeader (-1) s.d.version.number s.d.dialogId (s.d.messageCount + 1) with position := 1 },
      end_ := { position := n + 1, number := s.d.messageCount + 1 }, sigBegin := none,
      sigEnd := none, content := some segs', version := v, cache := [] } = .ok (b, m')) ↔ CanSendPlain s.d segs := by
    rw [hm]
    unfold CanSendPlain
    simp [newMsgHeader]
  clear hm
  rw [← hc]
  split
  · rename_i b m' hm
    refine ⟨rfl, rfl, Or.inr ⟨⟨b, m', hm⟩, _, rfl, rfl, ⟨rfl, ⟨rfl, rfl⟩, hb⟩, rfl, rfl, rfl, rfl, rfl, hb, ⟨m', hm⟩, ⟨_, rfl⟩⟩⟩
  · rename_i hm
    refine ⟨rfl, rfl, Or.inl ⟨?_, rfl, by simp⟩⟩
    rw [hm]; simp
  · rename_i hm
    refine ⟨rfl, rfl, Or.inl ⟨?_, rfl, by simp⟩⟩
    rw [hm]; simp

/-! ## What a call leaves in the log -/

/-- The messages of a synchronisation begun with counter `n` and dialog ID `id`. -/
inductive SyncLog (w : World σ α) (v n : Int) (id : Str) : List (Sent σ) → Prop where
  /-- nothing could be sent -/
  | unsent : SyncLog w v n id []
  /-- the answer was unreadable or not accepted, or no end could be sent -/
  | request (e : Sent σ) (segs : List (Option Seg)) : Logged w e .sync v (n + 1) id segs → SyncLog w v n id [e]
  /-- request and end; the end is for the dialog the bank opened -/
  | full (e f : Sent σ) (segs : List (Option Seg)) (m : Decrypted σ) (i : Str) : Logged w e .sync v (n + 1) id segs →
      e.reply = .ok m → syncAcceptable w m = .ok () → m.header.dialogId = some i →
      Logged w f .end_ v (n + 2) i (endSegments i) → SyncLog w v n id [e, f]

/-- The messages of a dialog with the given job, if any; `accepts` says what becomes of the
answer to the initialisation. -/
inductive DialogLog (w : World σ α) (accepts : Decrypted σ → Outcome Unit) (v : Int) (j : Option Job) :
    List (Sent σ) → Prop where
  /-- the initialisation could not be sent -/
  | unsent : DialogLog w accepts v j []
  /-- the answer was unreadable or not accepted -/
  | refused (e : Sent σ) (segs : List (Option Seg)) : Logged w e .init v 1 c!"0" segs →
      (∀ m, e.reply = .ok m → accepts m ≠ .ok ()) → DialogLog w accepts v j [e]
  /-- there is no job -/
  | bare (e f : Sent σ) (segs : List (Option Seg)) (m : Decrypted σ) (i : Str) : j = none →
      Logged w e .init v 1 c!"0" segs → e.reply = .ok m → accepts m = .ok () → m.header.dialogId = some i →
      Logged w f .end_ v 2 i (endSegments i) → DialogLog w accepts v j [e, f]
  /-- the job could not be marshalled; its number is lost -/
  | unsendable (e f : Sent σ) (segs : List (Option Seg)) (m : Decrypted σ) (i : Str) (k : Job) : j = some k →
      (∃ x, some x ∈ k.segments ∧ ¬ Writable x) →
      Logged w e .init v 1 c!"0" segs → e.reply = .ok m → accepts m = .ok () → m.header.dialogId = some i →
      Logged w f .end_ v 3 i (endSegments i) → DialogLog w accepts v j [e, f]
  /-- initialisation, job and end -/
  | full (e g f : Sent σ) (segs : List (Option Seg)) (m : Decrypted σ) (i : Str) (k : Job) : j = some k →
      (∀ x, some x ∈ k.segments → Writable x) →
      Logged w e .init v 1 c!"0" segs → e.reply = .ok m → accepts m = .ok () → m.header.dialogId = some i →
      Logged w g .job v 2 i k.segments → Logged w f .end_ v 3 i (endSegments i) → DialogLog w accepts v j [e, g, f]

theorem dialogIdOf_ok {m : Decrypted σ} (h : dialogIdOf m = .ok ()) (x : Str) :
    m.header.dialogId = some (m.header.dialogId.getD x) := by
  unfold dialogIdOf at h
  cases hm : m.header.dialogId with
  | none => rw [hm] at h; simp at h
  | some i => rfl

theorem syncAcceptable_dialogId {w : World σ α} {m : Decrypted σ} (h : syncAcceptable w m = .ok ()) :
    dialogIdOf m = .ok () := by
  unfold syncAcceptable assignable at h
  obtain ⟨_, h, _⟩ := bind_ok h
  obtain ⟨_, h, _⟩ := bind_ok h
  exact h

theorem acceptable_dialogId {w : World σ α} {m : Decrypted σ} (h : acceptable w m = .ok ()) :
    dialogIdOf m = .ok () := by
  unfold acceptable at h
  obtain ⟨_, h, _⟩ := bind_ok h
  exact h

theorem sync_log (w : World σ α) (s : St σ α) : ∃ S : List (Sent σ), (syncClientSystemId w s).2.sent = s.sent ++ S ∧
    SyncLog w s.d.version.number s.d.messageCount s.d.dialogId S ∧
    (syncClientSystemId w s).2.d.version = s.d.version := by
  rcases sync_spec w s with h | ⟨e, he, h | ⟨m, h⟩ | ⟨m, t, h⟩⟩
  · exact ⟨[], by rw [h.state]; simp, .unsent, by rw [h.state]; rfl⟩
  · exact ⟨[e], by rw [h.state]; rfl, .request e _ he, by rw [h.state]; rfl⟩
  · obtain ⟨o, hs⟩ := h.state
    have hl := hs.logs
    unfold logs at hl
    simp only [Prod.mk.injEq] at hl
    exact ⟨[e], by rw [hl.1]; rfl, .request e _ he, by rw [hl.2.2.2.1]; rfl⟩
  · have hl := h.before.logs
    unfold logs at hl
    simp only [Prod.mk.injEq] at hl
    have hv : (syncClientSystemId w s).2.d.version = s.d.version := by
      rw [h.after.1]
      exact hl.2.2.2.1
    rcases h.end_ with ⟨_, _, h1⟩ | ⟨_, f, h1, h2, _⟩
    · exact ⟨[e], h1, .request e _ he, hv⟩
    · refine ⟨[e, f], h1, .full e f _ m t.d.dialogId he h.reply h.accepted ?_ h2, hv⟩
      rw [h.before.dialogId]
      exact dialogIdOf_ok (syncAcceptable_dialogId h.accepted) _

/-- After a synchronisation the returned ID is the dialog's. -/
theorem sync_returns {w : World σ α} {s : St σ α} {id : Str} (h : (syncClientSystemId w s).1 = .ok id) :
    (syncClientSystemId w s).2.d.clientSystemId = id := by
  rcases sync_spec w s with h' | ⟨e, he, h' | ⟨m, h'⟩ | ⟨m, t, h'⟩⟩
  · exact absurd h (h'.fails id)
  · exact absurd h (h'.fails id)
  · exact absurd h (h'.fails id)
  · rw [h'.after.1]
    rcases h'.end_ with ⟨_, h1, _⟩ | ⟨_, f, _, _, h1, h2⟩
    · exact absurd h (h1 id)
    · by_cases ha : acked f.reply = .ok ()
      · rw [h1 ha] at h
        simpa using h
      · exact absurd h (h2 ha id)

theorem ensure_state (w : World σ α) (s : St σ α) :
    (ensureClientSystemId w s).2 = if s.d.clientSystemId = c!"0" then (syncClientSystemId w s).2 else s := by
  unfold ensureClientSystemId
  split
  · unfold M.bind
    have hr := fun id => sync_returns (w := w) (s := s) (id := id)
    rcases hx : syncClientSystemId w s with ⟨r, t⟩
    rw [hx] at hr
    cases r with
    | ok id =>
      simp only [M.modify]
      have := hr id rfl
      simp only at this
      rw [← this]
    | err => rfl
    | panic => rfl
  · rfl

theorem ensure_result (w : World σ α) (s : St σ α) :
    (ensureClientSystemId w s).1 =
      if s.d.clientSystemId = c!"0" then (syncClientSystemId w s).1.map' fun _ => () else .ok () := by
  unfold ensureClientSystemId
  split
  · unfold M.bind
    rcases hx : syncClientSystemId w s with ⟨r, t⟩
    cases r <;> rfl
  · rfl

theorem open_log (w : World σ α) (s : St σ α) :
    (open_ w s).2.d.version = s.d.version ∧
    ((open_ w s).1 ≠ .ok () → ∃ D, (open_ w s).2.sent = s.sent ++ D ∧
      ∀ j, DialogLog w (acceptable w) s.d.version.number j D) ∧
    ((open_ w s).1 = .ok () → Ready (open_ w s).2.d ∧ (open_ w s).2.d.messageCount = 1 ∧
      ∃ e m, (open_ w s).2.sent = s.sent ++ [e] ∧ Logged w e .init s.d.version.number 1 c!"0" (initSegments s.d) ∧
        e.reply = .ok m ∧ acceptable w m = .ok () ∧ m.header.dialogId = some (open_ w s).2.d.dialogId) := by
  rcases open_spec w s with ⟨_, h1, h2, h3, h4⟩ | ⟨hc, e, he, h1, h2⟩
  · exact ⟨by rw [h3], fun _ => ⟨[], by simp [h2], fun _ => .unsent⟩, fun h => absurd h (h1 ())⟩
  · by_cases hm : ∃ m, e.reply = .ok m
    · obtain ⟨m, hm⟩ := hm
      have ho := h1 m hm
      have hr := opened_result w m (afterInit s e)
      have hl := opened_outer w m (afterInit s e)
      have hl' := logs_of_outer hl
      unfold logs at hl'
      simp only [Prod.mk.injEq] at hl'
      rw [ho]
      refine ⟨hl'.2.2.2.1, ?_, ?_⟩
      · intro hn
        refine ⟨[e], hl'.1, fun j => .refused e _ he ?_⟩
        intro m' hm'
        rw [hm] at hm'
        simp only [Outcome.ok.injEq] at hm'
        rw [← hm', ← hr]
        exact hn
      · intro hok
        have hread : Readable m := by
          obtain ⟨env, hx⟩ := he.answered
          exact receive_readable (hx.symm.trans hm)
        refine ⟨opened_ready hok hread hc.1, hl'.2.2.1, e, m, hl'.1, he, hm, by rw [← hr]; exact hok, (opened_ok hok).1⟩
    · push Not at hm
      obtain ⟨k1, k2, _⟩ := h2 hm
      refine ⟨by rw [k2]; rfl, fun _ => ⟨[e], by rw [k2]; rfl, fun j => .refused e _ he fun m h => absurd h (hm m)⟩,
        fun h => absurd h (k1 ())⟩

theorem opened_send_log (w : World σ α) (j : Job) (s : St σ α) :
    ∃ D, (((open_ w).bind fun _ => M.deferred (job w j) (end_ w)) s).2.sent = s.sent ++ D ∧
      DialogLog w (acceptable w) s.d.version.number (some j) D := by
  obtain ⟨hv, h1, h2⟩ := open_log w s
  by_cases h : (open_ w s).1 = .ok ()
  · obtain ⟨hr, hn, e, m, h3, h4, h5, h6, h7⟩ := h2 h
    rw [M.bind_of_ok h]
    obtain ⟨_, _, f, q1, q2⟩ := close_spec w j (open_ w s).2 hr
    rw [hv, hn] at q1 q2
    rcases q2 with ⟨q2, q3, _⟩ | ⟨q2, g, q3, q4, _⟩
    · exact ⟨[e, f], by rw [q3, h3]; simp, .unsendable e f _ m _ j rfl q2 h4 h5 h6 h7 q1⟩
    · exact ⟨[e, g, f], by rw [q4, h3]; simp, .full e g f _ m _ j rfl q2 h4 h5 h6 h7 q3 q1⟩
  · obtain ⟨D, h3, h4⟩ := h1 h
    refine ⟨D, ?_, h4 _⟩
    rw [(M.bind_notOk (fun b hb => h hb)).1]
    exact h3

theorem opened_user_log (w : World σ α) (s : St σ α) :
    ∃ D, (((open_ w).bind fun _ => M.deferred (M.lift (.ok ())) (end_ w)) s).2.sent = s.sent ++ D ∧
      DialogLog w (acceptable w) s.d.version.number none D := by
  obtain ⟨hv, h1, h2⟩ := open_log w s
  by_cases h : (open_ w s).1 = .ok ()
  · obtain ⟨hr, hn, e, m, h3, h4, h5, h6, h7⟩ := h2 h
    rw [M.bind_of_ok h]
    obtain ⟨_, _, f, q1, q2, _⟩ := closeUser_spec w (open_ w s).2 hr
    rw [hv, hn] at q1
    exact ⟨[e, f], by rw [q2, h3]; simp, .bare e f _ m _ rfl h4 h5 h6 h7 q1⟩
  · obtain ⟨D, h3, h4⟩ := h1 h
    refine ⟨D, ?_, h4 _⟩
    rw [(M.bind_notOk (fun b hb => h hb)).1]
    exact h3

/-- Calls that first need a client system ID. -/
theorem ensured_log {β : Type} (w : World σ α) (k : M σ α β) (j : Option Job) (s : St σ α)
    (hk : ∀ t : St σ α, ∃ D, (k t).2.sent = t.sent ++ D ∧ DialogLog w (acceptable w) t.d.version.number j D) :
    ∃ S D, (((ensureClientSystemId w).bind fun _ => k) s).2.sent = s.sent ++ (S ++ D) ∧
      SyncLog w s.d.version.number s.d.messageCount s.d.dialogId S ∧
      DialogLog w (acceptable w) s.d.version.number j D ∧ (s.d.clientSystemId ≠ c!"0" → S = []) := by
  have h1 := ensure_state w s
  have h2 := ensure_result w s
  by_cases h0 : s.d.clientSystemId = c!"0"
  · rw [if_pos h0] at h1 h2
    obtain ⟨S, hS, hlog, hv⟩ := sync_log w s
    by_cases hok : (ensureClientSystemId w s).1 = .ok ()
    · rw [M.bind_of_ok hok, h1]
      obtain ⟨D, hD, hd⟩ := hk (syncClientSystemId w s).2
      rw [hv] at hd
      exact ⟨S, D, by rw [hD, hS, List.append_assoc], hlog, hd, fun h => absurd h0 h⟩
    · refine ⟨S, [], ?_, hlog, .unsent, fun h => absurd h0 h⟩
      rw [(M.bind_notOk (fun b hb => hok hb)).1, h1, hS, List.append_nil]
  · rw [if_neg h0] at h1 h2
    rw [M.bind_of_ok h2, h1]
    obtain ⟨D, hD, hd⟩ := hk s
    exact ⟨[], D, by simpa using hD, .unsent, hd, fun _ => rfl⟩

theorem send_log (w : World σ α) (j : Job) (s : St σ α) :
    ∃ S D, (sendMessage w j s).2.sent = s.sent ++ (S ++ D) ∧
      SyncLog w s.d.version.number s.d.messageCount s.d.dialogId S ∧
      DialogLog w (acceptable w) s.d.version.number (some j) D ∧ (s.d.clientSystemId ≠ c!"0" → S = []) := by
  unfold sendMessage init
  rw [M.bind_assoc]
  exact ensured_log w _ _ s (opened_send_log w j)

theorem user_log (w : World σ α) (s : St σ α) :
    ∃ S D, (syncUserParameterData w s).2.sent = s.sent ++ (S ++ D) ∧
      SyncLog w s.d.version.number s.d.messageCount s.d.dialogId S ∧
      DialogLog w (acceptable w) s.d.version.number none D ∧ (s.d.clientSystemId ≠ c!"0" → S = []) := by
  unfold syncUserParameterData init
  rw [M.bind_assoc]
  exact ensured_log w _ _ s (opened_user_log w)

/-! ## Anonymous dialogs -/

/-- Whether the answer to an anonymous initialisation is accepted. -/
def anonymousAcceptable (w : World σ α) (m : Decrypted σ) : Outcome Unit :=
  (dialogIdOf m).bind fun _ => (parametersReadable w m).bind fun _ =>
      (announcement w m).bind fun _ => checkAcks m

theorem anonymousOpened_eq (w : World σ α) (m : Decrypted σ) :
    anonymousOpened w m = (takeDialogId m).bind fun _ => (parseBoth w m).bind fun _ =>
      (M.lift (announcement w m)).bind fun _ => M.lift (checkAcks m) := by
  unfold anonymousOpened parseBoth
  simp only [M.bind_assoc]

theorem anonymousOpened_result (w : World σ α) (m : Decrypted σ) (s : St σ α) :
    (anonymousOpened w m s).1 = anonymousAcceptable w m := by
  rw [anonymousOpened_eq]
  unfold anonymousAcceptable
  refine M.bind_result _ (takeDialogId_result m s) fun _ _ => ?_
  refine M.bind_result _ (parseBoth_spec w m _).1 fun _ _ => ?_
  exact M.bind_result _ rfl fun _ _ => rfl

theorem anonymousOpened_dialogId (w : World σ α) (m : Decrypted σ) (s : St σ α) :
    (anonymousOpened w m s).2.d.dialogId = m.header.dialogId.getD s.d.dialogId := by
  rw [anonymousOpened_eq]
  exact bind_value (f := fun s : St σ α => s.d.dialogId) (takeDialogId_dialogId m s) fun _ =>
    .bind (parseBoth_core w m).mid_of_core.field_of_mid fun _ => .bind (.lift _) fun _ => .lift _

theorem anonymousOpened_mid (w : World σ α) (m : Decrypted σ) (s : St σ α) :
    (mid (anonymousOpened w m s).2).2 = (mid s).2 := by
  have h1 : Keeps (fun s : St σ α => (mid s).2) (takeDialogId (α := α) m) := by
    intro s
    unfold takeDialogId
    cases m.header.dialogId <;> rfl
  have h2 : Keeps (fun s : St σ α => (mid s).2) (parseBoth w m) :=
    fun s => congrArg Prod.snd ((parseBoth_core w m).mid_of_core s)
  rw [anonymousOpened_eq]
  exact Keeps.bind h1 (fun _ => .bind h2 fun _ => .bind (.lift _) fun _ => .lift _) s

theorem anonymousOpened_accounts (w : World σ α) (m : Decrypted σ) (s : St σ α) :
    (anonymousOpened w m s).2.d.accounts = s.d.accounts ++ gainedByInit w m := by
  rw [anonymousOpened_eq]
  have h1 := takeDialogId_result m s
  have h2 := takeDialogId_accounts m s
  unfold gainedByInit
  by_cases hd : dialogIdOf m = .ok ()
  · rw [hd] at h1 ⊢
    rw [M.bind_of_ok h1]
    have h4 := (parseBoth_spec w m (takeDialogId m s).2).2
    rw [show (takeDialogId m s).2.d.accounts = s.d.accounts from h2] at h4
    rw [← h4]
    exact bind_value (f := fun s : St σ α => s.d.accounts) rfl fun _ => .bind (.lift (announcement w m)) fun _ =>
      .lift (checkAcks m)
  · have hn : ∀ b, (takeDialogId m s).1 ≠ .ok b := by rw [h1]; intro b hb; exact hd hb
    rw [(M.bind_notOk hn).1]
    have : (takeDialogId m s).2.d.accounts = s.d.accounts := h2
    rw [this]
    cases hx : dialogIdOf m with
    | ok b => exact absurd hx hd
    | err => simp
    | panic => simp

/-- The anonymous initialisation. -/
theorem anonymousInit_spec (w : World σ α) (s : St σ α) :
    ((∃ x, some x ∈ anonymousSegments s.d ∧ ¬ Writable x) ∧ (∀ u, (anonymousInit w s).1 ≠ .ok u) ∧
      (anonymousInit w s).2 = ⟨{ s.d with dialogId := c!"0", messageCount := 1 }, s.step + 1, s.sent⟩) ∨
    (∃ e : Sent σ, Logged w e .init s.d.version.number 1 c!"0" (anonymousSegments s.d) ∧
      Unsecured e (anonymousSegments s.d) ∧
      (∀ m, e.reply = .ok m → anonymousInit w s = anonymousOpened w m (afterInit s e)) ∧
      ((∀ m, e.reply ≠ .ok m) → (∀ u, (anonymousInit w s).1 ≠ .ok u) ∧ (anonymousInit w s).2 = afterInit s e)) := by
  have he : anonymousInit w s = ((exchangePlain w .init (anonymousSegments s.d) s.d.version).bind fun m => anonymousOpened w m)
      { s with d := { s.d with dialogId := c!"0", messageCount := 0 } } := rfl
  have hx := exchangePlain_spec w .init (anonymousSegments s.d) s.d.version
    { s with d := { s.d with dialogId := c!"0", messageCount := 0 } }
  rw [he]
  obtain ⟨h1, h2, h3⟩ := hx
  rcases h3 with ⟨n, h3, h⟩ | ⟨y, e, h3, h4, h5, h6⟩
  · left
    obtain ⟨k1, k2, _⟩ := M.bind_notOk (f := fun m => anonymousOpened w m) h
    refine ⟨?_, k2, ?_⟩
    · unfold CanSendPlain at n
      have h0 : Latin1 c!"0" := latin1_of_all (by decide)
      simp only [h0, true_and] at n
      push Not at n
      exact n
    · rw [k1]
      rcases hz : (exchangePlain w .init (anonymousSegments s.d) s.d.version
        { s with d := { s.d with dialogId := c!"0", messageCount := 0 } }).2 with ⟨d, st, se⟩
      rw [hz] at h1 h2 h3
      simp only at h1 h2 h3
      rw [h1, h2, h3]
      rfl
  · right
    have hs : (exchangePlain w .init (anonymousSegments s.d) s.d.version
        { s with d := { s.d with dialogId := c!"0", messageCount := 0 } }).2 = afterInit s e := by
      rcases hz : (exchangePlain w .init (anonymousSegments s.d) s.d.version
        { s with d := { s.d with dialogId := c!"0", messageCount := 0 } }).2 with ⟨d, st, se⟩
      rw [hz] at h1 h2 h3
      simp only at h1 h2 h3
      rw [h1, h2, h3]
      rfl
    refine ⟨e, h6, h5, ?_, ?_⟩
    · intro m hm
      rw [hm] at h4
      rw [M.bind_of_ok h4, hs]
    · intro hn
      obtain ⟨k1, k2, _⟩ := M.bind_notOk (f := fun m => anonymousOpened w m) (by rw [h4]; exact hn)
      exact ⟨k2, by rw [k1, hs]⟩

theorem anonymousEnd_spec (w : World σ α) (s : St σ α) :
    (anonymousEnd w s).2.d = { s.d with messageCount := s.d.messageCount + 1 } ∧ (anonymousEnd w s).2.step = s.step + 1 ∧
    (Latin1 s.d.dialogId → ∃ e : Sent σ, (anonymousEnd w s).2.sent = s.sent ++ [e] ∧ (anonymousEnd w s).1 = acked e.reply ∧
        Unsecured e (endSegments s.d.dialogId) ∧
        Logged w e .end_ s.d.version.number (s.d.messageCount + 1) s.d.dialogId (endSegments s.d.dialogId)) ∧
    (¬ Latin1 s.d.dialogId → (anonymousEnd w s).2.sent = s.sent ∧ (anonymousEnd w s).1 ≠ .ok ()) := by
  have hx := exchangePlain_spec w .end_ (endSegments s.d.dialogId) s.d.version s
  have hc : CanSendPlain s.d (endSegments s.d.dialogId) ↔ Latin1 s.d.dialogId := by
    rw [CanSendPlain, endSegments, dialogEnd_writable, and_self]
  rw [hc] at hx
  have he : anonymousEnd w s =
    ((exchangePlain w .end_ (endSegments s.d.dialogId) s.d.version).bind fun m => M.lift (checkAcks m)) s := rfl
  rw [he]
  obtain ⟨h1, h2, h3⟩ := hx
  have hd : (((exchangePlain w .end_ (endSegments s.d.dialogId) s.d.version).bind fun m => M.lift (checkAcks m)) s).2 =
      (exchangePlain w .end_ (endSegments s.d.dialogId) s.d.version s).2 :=
    bind_value (f := fun s : St σ α => s) rfl fun _ => .lift _
  have hr : (((exchangePlain w .end_ (endSegments s.d.dialogId) s.d.version).bind fun m => M.lift (checkAcks m)) s).1 =
      acked (exchangePlain w .end_ (endSegments s.d.dialogId) s.d.version s).1 :=
    M.bind_result _ rfl fun _ _ => rfl
  rw [hd, hr]
  refine ⟨h1, h2, ?_, ?_⟩
  · intro hl
    simp only [hl, not_true, false_and, true_and, false_or] at h3
    obtain ⟨e, k1, k2, k3, k4⟩ := h3
    exact ⟨e, k1, by rw [k2], k3, k4⟩
  · intro hl
    simp only [hl, not_false_eq_true, false_and, true_and, or_false] at h3
    refine ⟨h3.1, ?_⟩
    have h4 := h3.2
    revert h4
    unfold acked
    cases (exchangePlain w .end_ (endSegments s.d.dialogId) s.d.version s).1 with
    | ok m => intro h; exact absurd rfl (h m)
    | err => intro _; simp [Outcome.bind]
    | panic => intro _; simp [Outcome.bind]

theorem anonymousJob_spec (w : World σ α) (j : Job) (s : St σ α) :
    (anonymousJob w j s).2 = (exchangePlain w .job j.segments j.version s).2 ∧
    (anonymousJob w j s).1 = (exchangePlain w .job j.segments j.version s).1.bind fun m => (checkAcks m).map' fun _ => m := by
  constructor
  · exact bind_value (f := fun s : St σ α => s) rfl fun _ => .bind (.lift _) fun _ => .lift _
  · refine M.bind_result _ rfl fun m _ => ?_
    have := M.bind_result (m := M.lift (checkAcks m)) (f := fun _ => M.lift (.ok m)) (s := (exchangePlain w .job j.segments j.version s).2)
      (fun _ => .ok m) rfl fun _ _ => rfl
    rw [this]
    cases checkAcks m <;> rfl

theorem anonymous_log (w : World σ α) (j : Job) (s : St σ α) :
    ∃ D, (sendAnonymousMessage w j s).2.sent = s.sent ++ D ∧
      DialogLog w (anonymousAcceptable w) s.d.version.number (some j) D ∧
      ∀ e ∈ D, e.wire = e.plain ∧ e.wire.sigBegin = none ∧ e.wire.sigEnd = none := by
  unfold sendAnonymousMessage
  rcases anonymousInit_spec w s with ⟨_, h1, h2⟩ | ⟨e, he, hu, h1, h2⟩
  · refine ⟨[], ?_, .unsent, by simp⟩
    rw [(M.bind_notOk h1).1, h2]
    simp
  · by_cases hm : ∃ m, e.reply = .ok m
    · obtain ⟨m, hm⟩ := hm
      have ho := h1 m hm
      have hr := anonymousOpened_result w m (afterInit s e)
      have hl := logs_of_outer (anonymousOpened_outer w m (afterInit s e))
      have hd := anonymousOpened_dialogId w m (afterInit s e)
      unfold logs at hl
      simp only [Prod.mk.injEq] at hl
      by_cases hok : anonymousAcceptable w m = .ok ()
      · have hok' : (anonymousInit w s).1 = .ok () := by rw [ho, hr, hok]
        rw [M.bind_of_ok hok', ho]
        have hread : Readable m := by
          obtain ⟨env, hx⟩ := he.answered
          exact receive_readable (hx.symm.trans hm)
        generalize (anonymousOpened w m (afterInit s e)).2 = t at *
        have hdi : m.header.dialogId = some t.d.dialogId := by
          rw [hd]
          refine dialogIdOf_ok ?_ _
          unfold anonymousAcceptable at hok
          obtain ⟨_, hok, _⟩ := bind_ok hok
          exact hok
        have hlat := hread.dialogId _ hdi
        unfold M.deferred
        obtain ⟨j1, j2⟩ := anonymousJob_spec w j t
        obtain ⟨x1, x2, x3⟩ := exchangePlain_spec w .job j.segments j.version t
        rw [← j1] at x1 x2 x3
        obtain ⟨_, _, y1, _⟩ := anonymousEnd_spec w (anonymousJob w j t).2
        rw [x1] at y1
        obtain ⟨f, y2, y3, y4, y5⟩ := y1 hlat
        simp only
        simp only at y4 y5
        rw [hl.2.2.2.1, hl.2.2.1] at y5
        simp only [afterInit] at y5
        rw [y2]
        rcases x3 with ⟨n, x4, _⟩ | ⟨y, g, x4, _, x5, x6⟩
        · refine ⟨[e, f], by rw [x4, hl.1]; simp [afterInit], ?_, ?_⟩
          · refine .unsendable e f _ m _ j rfl ?_ he hm hok hdi y5
            unfold CanSendPlain at n
            simp only [hlat, true_and] at n
            push Not at n
            exact n
          · simp only [List.mem_cons, List.not_mem_nil, or_false, forall_eq_or_imp, forall_eq]
            exact ⟨⟨hu.wire, hu.unsigned⟩, y4.wire, y4.unsigned⟩
        · refine ⟨[e, g, f], by rw [x4, hl.1]; simp [afterInit], ?_, ?_⟩
          · rw [hl.2.2.2.1, hl.2.2.1] at x6
            exact .full e g f _ m _ j rfl y.2 he hm hok hdi x6 y5
          · simp only [List.mem_cons, List.not_mem_nil, or_false, forall_eq_or_imp, forall_eq]
            exact ⟨⟨hu.wire, hu.unsigned⟩, ⟨x5.wire, x5.unsigned⟩, y4.wire, y4.unsigned⟩
      · have hn : ∀ u, (anonymousInit w s).1 ≠ .ok u := by rw [ho, hr]; exact fun u hu => hok hu
        refine ⟨[e], ?_, .refused e _ he ?_, ?_⟩
        · rw [(M.bind_notOk hn).1, ho, hl.1]; rfl
        · intro m' hm'
          rw [hm] at hm'
          simp only [Outcome.ok.injEq] at hm'
          rw [← hm']
          exact hok
        · simp only [List.mem_cons, List.not_mem_nil, or_false, forall_eq]
          exact ⟨hu.wire, hu.unsigned⟩
    · push Not at hm
      obtain ⟨k1, k2⟩ := h2 hm
      refine ⟨[e], ?_, .refused e _ he fun m h => absurd h (hm m), ?_⟩
      · rw [(M.bind_notOk k1).1, k2]; rfl
      · simp only [List.mem_cons, List.not_mem_nil, or_false, forall_eq]
        exact ⟨hu.wire, hu.unsigned⟩

end Verif.Dialog

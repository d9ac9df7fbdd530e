import Verif.Dialog.Props

/-
C28–C31: what the dialog remembers between calls.
-/

namespace Verif.Dialog

open GoLib Element Element.Spec Segment Message Domain Transport

variable {σ α : Type}

/-! ## Invariants of the dialog -/

/-- `m` preserves `P`. -/
def Pres {β : Type} (P : Dialog σ α → Prop) (m : M σ α β) : Prop := ∀ s, P s.d → P (m s).2.d

theorem Pres.bind {β γ : Type} {P : Dialog σ α → Prop} {m : M σ α β} {g : β → M σ α γ} (h1 : Pres P m)
    (h2 : ∀ b, Pres P (g b)) : Pres P (m.bind g) := by
  intro s hs
  unfold M.bind
  have := h1 s hs
  rcases h : m s with ⟨r, s'⟩
  rw [h] at this
  cases r with
  | ok b => exact h2 b s' this
  | err => exact this
  | panic => exact this

theorem Pres.lift {β : Type} {P : Dialog σ α → Prop} (o : Outcome β) : Pres P (M.lift (σ := σ) (α := α) o) := fun _ h => h

theorem Pres.modify {P : Dialog σ α → Prop} {f : Dialog σ α → Dialog σ α} (h : ∀ d, P d → P (f d)) : Pres P (M.modify f) :=
  fun s hs => h s.d hs

theorem Pres.deferred {β : Type} {P : Dialog σ α → Prop} {m : M σ α β} {l : M σ α Unit} (h1 : Pres P m) (h2 : Pres P l) :
    Pres P (M.deferred m l) := fun s hs => h2 _ (h1 s hs)

/-- What an invariant must not depend on for sending to preserve it. -/
def Countless (P : Dialog σ α → Prop) : Prop := ∀ (d : Dialog σ α) (n : Int), P d → P { d with messageCount := n }

theorem Pres.exchange {P : Dialog σ α → Prop} (hc : Countless P) (w : World σ α) (k : Kind) (segs : List (Option Seg))
    (v : Version) : Pres P (exchange w k segs v) := by
  intro s hs
  rw [(exchange_spec w k segs v s).1]
  exact hc _ _ hs

theorem Pres.exchangePlain {P : Dialog σ α → Prop} (hc : Countless P) (w : World σ α) (k : Kind) (segs : List (Option Seg))
    (v : Version) : Pres P (exchangePlain w k segs v) := by
  intro s hs
  rw [(exchangePlain_spec w k segs v s).1]
  exact hc _ _ hs

/-- All calls preserve `P` if the assignments the dialog makes and the reading of parameters do. -/
theorem Pres.callWith {P : Dialog σ α → Prop} (w : World σ α) (hc : Countless P)
    (hd : ∀ (d : Dialog σ α) (i : Str), P d → P { d with dialogId := i })
    (hboth : ∀ m : Decrypted σ, Pres P (parseBoth w m))
    (hf : ∀ (d : Dialog σ α) (fn : Str) (m : Decrypted σ), Announces w m fn → P d → P (setSecurityFunction fn d))
    (hi : ∀ (d : Dialog σ α) (id : Str), P d → P (setClientSystemId id d))
    (hr : ∀ d : Dialog σ α, P d → P (resetCrypto d))
    (hp : ∀ (d : Dialog σ α) (pin : Str) (s : St σ α), s.d = d → P d → P (setPin w pin s).2.d)
    (c : Call) (s : St σ α) (h : P s.d) : P (run w c s).2.d := by
  have htake : ∀ m : Decrypted σ, Pres P (takeDialogId m) := by
    intro m s hs
    unfold takeDialogId
    cases m.header.dialogId with
    | none => exact hs
    | some i => exact hd _ _ hs
  have hupd : ∀ m : Decrypted σ, Pres P (updateSecurityFunction w m) := by
    intro m s hs
    rcases updateSecurityFunction_spec w m s with he | ⟨fn, ha, _, _, he⟩
    · rw [he]; exact hs
    · rw [he]; exact hf _ fn m ha hs
  have hend : Pres P (end_ w) := by
    intro s hs
    rw [(end_spec w s).1]
    exact hc _ _ hs
  have haend : Pres P (anonymousEnd w) := by
    intro s hs
    rw [(anonymousEnd_spec w s).1]
    exact hc _ _ hs
  have hjob : ∀ j, Pres P (job w j) := fun j =>
    .bind (.exchange hc w _ _ _) fun _ => .bind (.lift _) fun _ => .lift _
  have hajob : ∀ j, Pres P (anonymousJob w j) := fun j =>
    .bind (.exchangePlain hc w _ _ _) fun _ => .bind (.lift _) fun _ => .lift _
  have hopen : Pres P (open_ w) := by
    refine .bind (.modify fun d hx => hc _ 0 (hd _ c!"0" hx)) fun _ => ?_
    intro s hs
    refine Pres.bind (.exchange hc w _ _ _) (fun m => ?_) s hs
    rw [opened_eq]
    exact .bind (htake m) fun _ => .bind (hboth m) fun _ => .bind (.lift _) fun _ => .bind (.lift _) fun _ => hupd m
  have hainit : Pres P (anonymousInit w) := by
    refine .bind (.modify fun d hx => hc _ 0 (hd _ c!"0" hx)) fun _ => ?_
    intro s hs
    refine Pres.bind (.exchangePlain hc w _ _ _) (fun m => ?_) s hs
    rw [anonymousOpened_eq]
    exact .bind (htake m) fun _ => .bind (hboth m) fun _ => .bind (.lift _) fun _ => .lift _
  have hsync : Pres P (syncClientSystemId w) := by
    rw [sync_eq]
    refine .bind ?_ fun m => .bind ?_ fun _ => .bind hend fun _ => fun _ h => h
    · intro s hs
      rw [(syncRequest_spec w s).1]
      exact hc _ _ (hr _ hs)
    · refine .bind (htake m) fun _ => .bind (.lift _) fun _ => .bind (hupd m) fun _ => .bind ?_ fun _ => hboth m
      intro s hs
      rcases takeClientSystemId_spec w m s with ⟨id, _, he⟩ | ⟨o, _, _, _, he⟩
      · rw [he]; exact hi _ _ hs
      · rw [he]; exact hs
  have hens : Pres P (ensureClientSystemId w) := by
    intro s hs
    rw [ensure_state]
    split
    · exact hsync s hs
    · exact hs
  have hinit : Pres P (init w) := .bind hens fun _ => hopen
  cases c with
  | send j => exact Pres.bind hinit (fun _ => .deferred (hjob j) hend) s h
  | sendAnonymous j => exact Pres.bind hainit (fun _ => .deferred (hajob j) haend) s h
  | sync => exact hsync s h
  | syncUser => exact Pres.bind hinit (fun _ => .deferred (.lift _) hend) s h
  | setPin p => exact hp s.d p s rfl h

/-- All calls preserve `P` if the assignments the dialog makes do. -/
theorem Pres.call {P : Dialog σ α → Prop} (w : World σ α) (hc : Countless P)
    (hd : ∀ (d : Dialog σ α) (i : Str), P d → P { d with dialogId := i })
    (hb : ∀ (d d' : Dialog σ α) (st : Nat) (se : List (Sent σ)), core ⟨d, st, se⟩ = core ⟨d', st, se⟩ → P d → P d')
    (hf : ∀ (d : Dialog σ α) (fn : Str) (m : Decrypted σ), Announces w m fn → P d → P (setSecurityFunction fn d))
    (hi : ∀ (d : Dialog σ α) (id : Str), P d → P (setClientSystemId id d))
    (hr : ∀ d : Dialog σ α, P d → P (resetCrypto d))
    (hp : ∀ (d : Dialog σ α) (pin : Str) (s : St σ α), s.d = d → P d → P (setPin w pin s).2.d)
    (c : Call) (s : St σ α) (h : P s.d) : P (run w c s).2.d := by
  have hcore : ∀ {β : Type} {m : M σ α β}, Keeps core m → Pres P m := by
    intro β m hk s hs
    have := hk s
    refine hb s.d _ 0 [] ?_ hs
    unfold core at this ⊢
    simp only [St.mk.injEq, Dialog.mk.injEq, and_true, true_and] at this ⊢
    tauto
  exact Pres.callWith w hc hd (fun m => hcore (parseBoth_core w m)) hf hi hr hp c s h

theorem Pres.all {P : Dialog σ α → Prop} {w : World σ α} (h : ∀ c s, P s.d → P (run w c s).2.d) (cs : List Call) :
    ∀ s : St σ α, P s.d → P (runAll w cs s).d := by
  induction cs with
  | nil => intro s hs; exact hs
  | cons c cs ih => intro s hs; exact ih _ (h c s hs)

/-! ## C28: the client system ID -/

/-- The signature provider has the dialog's client system ID; the crypto provider has it,
too, or has none. -/
def IdsAgree (d : Dialog σ α) : Prop :=
  d.sig.clientSystemId = d.clientSystemId ∧ (d.crypto.clientSystemId = d.clientSystemId ∨ d.crypto.clientSystemId = c!"0")

/-- C28: in every history of a PIN/TAN dialog, the signature provider uses the dialog's client
system ID, and the crypto provider either does or uses "0". -/
theorem C28_invariant (w : World σ α) (cs : List Call) (bank : BankId) (user : Str) (v : Version) (pn pv : Str) (n : Nat)
    (log : List (Sent σ)) : IdsAgree (runAll w cs ⟨newPinTanDialog w bank user v pn pv, n, log⟩).d := by
  refine Pres.all (P := IdsAgree) (fun c s h => Pres.call w ?_ ?_ ?_ ?_ ?_ ?_ ?_ c s h) cs _ ?_
  · intro d n h; exact h
  · intro d i h; exact h
  · intro d d' st se hc h
    unfold core at hc
    simp only [St.mk.injEq, Dialog.mk.injEq, and_true, true_and] at hc
    have h1 : d.sig = d'.sig := by tauto
    have h2 : d.crypto = d'.crypto := by tauto
    have h3 : d.clientSystemId = d'.clientSystemId := by tauto
    unfold IdsAgree at h ⊢
    rwa [← h1, ← h2, ← h3]
  · intro d fn m _ h; exact h
  · intro d id _; exact ⟨rfl, Or.inl rfl⟩
  · intro d h; exact ⟨h.1, Or.inr rfl⟩
  · intro d pin s hs h; exact ⟨rfl, Or.inl rfl⟩
  · exact ⟨rfl, Or.inl rfl⟩

/-- C28: a successful synchronisation returns the ID in the answer (HISYN), and dialog,
signature provider and crypto provider all use it. -/
theorem C28_acquired (w : World σ α) (s : St σ α) (id : Str) (h : (syncClientSystemId w s).1 = .ok id) :
    (syncClientSystemId w s).2.d.clientSystemId = id ∧ (syncClientSystemId w s).2.d.sig.clientSystemId = id ∧
    (syncClientSystemId w s).2.d.crypto.clientSystemId = id ∧
    ∃ e f m x, (syncClientSystemId w s).2.sent = s.sent ++ [e, f] ∧ e.kind = .sync ∧ e.reply = .ok m ∧
      find m c!"HISYN" = some x ∧ viewOf w.views.clientSystemId x = .ok id := by
  rcases sync_spec w s with h' | ⟨e, he, h' | ⟨m, h'⟩ | ⟨m, t, h'⟩⟩
  · exact absurd h (h'.fails id)
  · exact absurd h (h'.fails id)
  · exact absurd h (h'.fails id)
  · rw [h'.after.1]
    rcases h'.end_ with ⟨_, h1, _⟩ | ⟨_, f, h3, h4, h1, h2⟩
    · exact absurd h (h1 id)
    · by_cases ha : acked f.reply = .ok ()
      · rw [h1 ha] at h
        simp only [Outcome.ok.injEq] at h
        have hacc := h'.accepted
        unfold syncAcceptable at hacc
        obtain ⟨_, q1, hacc⟩ := bind_ok hacc
        obtain ⟨i, q2, _⟩ := bind_ok hacc
        have hb : ((assignable w m).bind fun _ => assignedId w m) = .ok i := by rw [q1]; exact q2
        rcases h'.before.ids with ⟨_, q3⟩ | ⟨i', q3, q4⟩
        · exact absurd hb (q3 i)
        · rw [hb] at q3
          simp only [Outcome.ok.injEq] at q3
          subst q3
          unfold ids at q4
          simp only [Prod.mk.injEq] at q4
          rw [q4.1] at h
          subst h
          refine ⟨q4.1, q4.2.1, q4.2.2, e, f, m, ?_⟩
          unfold assignedId at q2
          cases hx : find m c!"HISYN" with
          | none => rw [hx] at q2; simp at q2
          | some x => rw [hx] at q2; exact ⟨x, h3, he.kind, h'.reply, rfl, q2⟩
      · exact absurd h (h2 ha id)

/-- C28: a client system ID is asked for only if there is none; and if there is none, nothing
is sent before asking for one. -/
theorem C28_requested (w : World σ α) (j : Job) (s : St σ α) :
    (s.d.clientSystemId ≠ c!"0" → ∃ E, (sendMessage w j s).2.sent = s.sent ++ E ∧ ∀ e ∈ E, e.kind ≠ .sync) ∧
    (s.d.clientSystemId = c!"0" → ∃ E, (sendMessage w j s).2.sent = s.sent ++ E ∧
      ∀ e rest, E = e :: rest → e.kind = .sync ∧ ∀ f ∈ rest, f.kind ≠ .sync) := by
  constructor
  · intro hid
    obtain ⟨S, D, h1, h2, h3, h4⟩ := send_log w j s
    rw [h4 hid] at h1
    refine ⟨D, by simpa using h1, ?_⟩
    cases h3 with
    | unsent => simp
    | refused a segs ha _ => simp [ha.kind]
    | bare a f segs m i _ ha h4 _ h6 hf => simp [ha.kind, hf.kind]
    | unsendable a f segs m i k hk hx ha h4 _ h6 hf => simp [ha.kind, hf.kind]
    | full a g f segs m i k _ _ ha h4 _ h6 hg hf => simp [ha.kind, hf.kind, hg.kind]
  · intro hid
    have h1 := ensure_state w s
    have h2 := ensure_result w s
    rw [if_pos hid] at h1 h2
    obtain ⟨S, hS, hlog, hv⟩ := sync_log w s
    unfold sendMessage init
    rw [M.bind_assoc]
    by_cases hok : (ensureClientSystemId w s).1 = .ok ()
    · rw [M.bind_of_ok hok, h1]
      obtain ⟨D, hD, hd⟩ := opened_send_log w j (syncClientSystemId w s).2
      refine ⟨S ++ D, by rw [hD, hS, List.append_assoc], ?_⟩
      have hne : ∃ id, (syncClientSystemId w s).1 = .ok id := by
        rw [h2] at hok
        obtain ⟨id, hid, _⟩ := map_ok hok
        exact ⟨id, hid⟩
      obtain ⟨id, hne⟩ := hne
      obtain ⟨_, _, _, e, f, m, x, hE, hk, _⟩ := C28_acquired w s id hne
      rw [hS] at hE
      have hE := List.append_cancel_left hE
      subst hE
      have hD' : ∀ d ∈ D, d.kind ≠ .sync := by
        cases hd with
        | unsent => simp
        | refused a segs ha _ => simp [ha.kind]
        | bare a f segs m i _ ha h4 _ h6 hf => simp [ha.kind, hf.kind]
        | unsendable a f segs m i k hk hx ha h4 _ h6 hf => simp [ha.kind, hf.kind]
        | full a g f segs m i k _ _ ha h4 _ h6 hg hf => simp [ha.kind, hf.kind, hg.kind]
      intro a rest ha
      simp only [List.cons_append, List.nil_append, List.cons.injEq] at ha
      obtain ⟨rfl, rfl⟩ := ha
      refine ⟨hk, ?_⟩
      intro b hb
      rcases List.mem_cons.1 hb with rfl | hb
      · cases hlog with
        | full _ _ _ _ _ _ _ _ _ hf => rw [hf.kind]; decide
      · exact hD' b hb
    · refine ⟨S, ?_, ?_⟩
      · rw [(M.bind_notOk (fun b hb => hok hb)).1, h1, hS]
      · intro e rest he
        cases hlog with
        | unsent => cases he
        | request a segs ha => cases he; exact ⟨ha.kind, by simp⟩
        | full a f segs m i ha h4 h5 h6 hf => cases he; exact ⟨ha.kind, by simp [hf.kind]⟩

example : Sample.trace (sendMessage (Sample.world Sample.good) Sample.work (Sample.fresh Sample.good)).2 =
    [(.sync, 1, c!"0"), (.end_, 2, c!"dia1"), (.init, 1, c!"0"), (.job, 2, c!"dia3"), (.end_, 3, c!"dia3")] :=
  Sample.trace_good

/-- C28: when a synchronisation fails because there is no readable answer, or one with an
error acknowledgement, the dialog and the signature provider keep their ID, but the crypto
provider has lost it, and messages are encrypted for "0" from then on. -/
theorem C28_failed (w : World σ α) (s : St σ α)
    (h : ∀ e E, (syncClientSystemId w s).2.sent = s.sent ++ e :: E → ∀ m, e.reply = .ok m →
      ∃ a ∈ m.acknowledgements, 9000 ≤ a.code) :
    (∀ id, (syncClientSystemId w s).1 ≠ .ok id) ∧
    (syncClientSystemId w s).2.d.clientSystemId = s.d.clientSystemId ∧
    (syncClientSystemId w s).2.d.sig.clientSystemId = s.d.sig.clientSystemId ∧
    (syncClientSystemId w s).2.d.crypto.clientSystemId = c!"0" := by
  have bad : ∀ m : Decrypted σ, (∃ a ∈ m.acknowledgements, 9000 ≤ a.code) → ∀ u, assignable w m ≠ .ok u := by
    rintro m ⟨a, ha, hc⟩ u hx
    unfold assignable at hx
    obtain ⟨_, _, hx⟩ := bind_ok hx
    obtain ⟨_, hx, _⟩ := bind_ok hx
    have := (checkAcks_iff m).1 hx a ha
    omega
  rcases sync_spec w s with h' | ⟨e, he, h' | ⟨m, h'⟩ | ⟨m, t, h'⟩⟩
  · exact ⟨h'.fails, by rw [h'.state]; exact ⟨rfl, rfl, rfl⟩⟩
  · exact ⟨h'.fails, by rw [h'.state]; exact ⟨rfl, rfl, rfl⟩⟩
  · obtain ⟨o, hs⟩ := h'.state
    refine ⟨h'.fails, ?_⟩
    have hl := hs.logs
    unfold logs at hl
    simp only [Prod.mk.injEq] at hl
    have hb := bad m (h e [] hl.1 m h'.reply)
    rcases hs.ids with ⟨q, _⟩ | ⟨id, q, _⟩
    · unfold ids at q
      simp only [Prod.mk.injEq] at q
      exact q
    · obtain ⟨u, hu, _⟩ := bind_ok q
      exact absurd hu (hb u)
  · exfalso
    have hsent : ∃ E, (syncClientSystemId w s).2.sent = s.sent ++ e :: E := by
      rcases h'.end_ with ⟨_, _, h1⟩ | ⟨_, f, h1, _⟩
      · exact ⟨[], h1⟩
      · exact ⟨[f], h1⟩
    obtain ⟨E, hE⟩ := hsent
    have hacc := h'.accepted
    unfold syncAcceptable at hacc
    obtain ⟨u, q1, _⟩ := bind_ok hacc
    exact bad m (h e E hE m h'.reply) u q1

example : (runAll (Sample.world Sample.bad) [.sync] (Sample.known Sample.bad)).d.clientSystemId = c!"sys0" ∧
    (runAll (Sample.world Sample.bad) [.sync] (Sample.known Sample.bad)).d.crypto.clientSystemId = c!"0" ∧
    (Sample.known Sample.bad).d.crypto.clientSystemId = c!"sys0" :=
  Sample.crypto_lost

/-! ## C29: accounts -/

/-- The accounts gained by the answer to a sent message: synchronisations and initialisations
may bring some. -/
def gainedBy (w : World σ α) (e : Sent σ) : List α :=
  match e.kind, e.reply with
  | .sync, .ok m => gainedBySync w m
  | .init, .ok m => gainedByInit w m
  | _, _ => []

/-- The accounts grow by what the messages sent in between bring. -/
def Grows (w : World σ α) (s t : St σ α) : Prop :=
  ∃ E, t.sent = s.sent ++ E ∧ t.d.accounts = s.d.accounts ++ E.flatMap (gainedBy w)

theorem Grows.refl (w : World σ α) (s : St σ α) : Grows w s s := ⟨[], by simp, by simp⟩

theorem Grows.trans {w : World σ α} {s t u : St σ α} (h1 : Grows w s t) (h2 : Grows w t u) : Grows w s u := by
  obtain ⟨E, h1, h3⟩ := h1
  obtain ⟨F, h2, h4⟩ := h2
  exact ⟨E ++ F, by rw [h2, h1, List.append_assoc], by rw [h4, h3]; simp⟩

theorem Grows.bind {β γ : Type} {w : World σ α} {m : M σ α β} {g : β → M σ α γ} (h1 : ∀ s, Grows w s (m s).2)
    (h2 : ∀ b s, Grows w s (g b s).2) : ∀ s, Grows w s (m.bind g s).2 := by
  intro s
  unfold M.bind
  have := h1 s
  rcases h : m s with ⟨r, s'⟩
  rw [h] at this
  cases r with
  | ok b => exact this.trans (h2 b s')
  | err => exact this
  | panic => exact this

theorem Grows.deferred {β : Type} {w : World σ α} {m : M σ α β} {l : M σ α Unit} (h1 : ∀ s, Grows w s (m s).2)
    (h2 : ∀ s, Grows w s (l s).2) : ∀ s, Grows w s (M.deferred m l s).2 := fun s => (h1 s).trans (h2 _)

theorem grows_exchange (w : World σ α) {k : Kind} (hk : k = .job ∨ k = .end_) (segs : List (Option Seg)) (v : Version)
    (s : St σ α) : Grows w s (exchange w k segs v s).2 := by
  obtain ⟨h1, _, ⟨_, h2, _⟩ | ⟨_, e, h2, _, h3⟩⟩ := exchange_spec w k segs v s
  · exact ⟨[], by simpa using h2, by rw [h1]; simp⟩
  · refine ⟨[e], h2, ?_⟩
    rw [h1]
    have : gainedBy w e = [] := by
      unfold gainedBy
      rw [h3.kind]
      rcases hk with rfl | rfl <;> rfl
    simp [this]

theorem grows_exchangePlain (w : World σ α) {k : Kind} (hk : k = .job ∨ k = .end_) (segs : List (Option Seg)) (v : Version)
    (s : St σ α) : Grows w s (exchangePlain w k segs v s).2 := by
  obtain ⟨h1, _, ⟨_, h2, _⟩ | ⟨_, e, h2, _, _, h3⟩⟩ := exchangePlain_spec w k segs v s
  · exact ⟨[], by simpa using h2, by rw [h1]; simp⟩
  · refine ⟨[e], h2, ?_⟩
    rw [h1]
    have : gainedBy w e = [] := by
      unfold gainedBy
      rw [h3.kind]
      rcases hk with rfl | rfl <;> rfl
    simp [this]

theorem grows_open (w : World σ α) (s : St σ α) : Grows w s (open_ w s).2 := by
  rcases open_spec w s with ⟨_, _, h2, h3, _⟩ | ⟨_, e, he, h1, h2⟩
  · exact ⟨[], by simpa using h2, by rw [h3]; simp⟩
  · cases hm : e.reply with
    | ok m =>
      have hl := logs_of_outer (opened_outer w m (afterInit s e))
      unfold logs at hl
      simp only [Prod.mk.injEq] at hl
      refine ⟨[e], by rw [h1 m hm]; exact hl.1, ?_⟩
      rw [h1 m hm, opened_accounts]
      have : gainedBy w e = gainedByInit w m := by unfold gainedBy; rw [he.kind, hm]
      simp [this, afterInit]
    | err =>
      have := (h2 (by rw [hm]; simp)).2.1
      refine ⟨[e], by rw [this]; rfl, ?_⟩
      have hg : gainedBy w e = [] := by unfold gainedBy; rw [he.kind, hm]
      rw [this]
      simp [hg, afterInit]
    | panic =>
      have := (h2 (by rw [hm]; simp)).2.1
      refine ⟨[e], by rw [this]; rfl, ?_⟩
      have hg : gainedBy w e = [] := by unfold gainedBy; rw [he.kind, hm]
      rw [this]
      simp [hg, afterInit]

theorem grows_anonymousInit (w : World σ α) (s : St σ α) : Grows w s (anonymousInit w s).2 := by
  rcases anonymousInit_spec w s with ⟨_, _, h2⟩ | ⟨e, he, _, h1, h2⟩
  · exact ⟨[], by rw [h2]; simp, by rw [h2]; simp⟩
  · cases hm : e.reply with
    | ok m =>
      have hl := logs_of_outer (anonymousOpened_outer w m (afterInit s e))
      unfold logs at hl
      simp only [Prod.mk.injEq] at hl
      refine ⟨[e], by rw [h1 m hm]; exact hl.1, ?_⟩
      rw [h1 m hm, anonymousOpened_accounts]
      have : gainedBy w e = gainedByInit w m := by unfold gainedBy; rw [he.kind, hm]
      simp [this, afterInit]
    | err =>
      have := (h2 (by rw [hm]; simp)).2
      refine ⟨[e], by rw [this]; rfl, ?_⟩
      have hg : gainedBy w e = [] := by unfold gainedBy; rw [he.kind, hm]
      rw [this]
      simp [hg, afterInit]
    | panic =>
      have := (h2 (by rw [hm]; simp)).2
      refine ⟨[e], by rw [this]; rfl, ?_⟩
      have hg : gainedBy w e = [] := by unfold gainedBy; rw [he.kind, hm]
      rw [this]
      simp [hg, afterInit]

theorem grows_sync (w : World σ α) (s : St σ α) : Grows w s (syncClientSystemId w s).2 := by
  rcases sync_spec w s with h | ⟨e, he, h | ⟨m, h⟩ | ⟨m, t, h⟩⟩
  · exact ⟨[], by rw [h.state]; simp, by rw [h.state]; simp [resetCrypto]⟩
  · refine ⟨[e], by rw [h.state]; rfl, ?_⟩
    have hg : gainedBy w e = [] := by
      unfold gainedBy
      rw [he.kind]
      cases hm : e.reply with
      | ok m => exact absurd hm (h.reply m)
      | err => rfl
      | panic => rfl
    rw [h.state]
    simp [hg, afterSync, resetCrypto]
  · obtain ⟨o, hs⟩ := h.state
    have hl := hs.logs
    unfold logs at hl
    simp only [Prod.mk.injEq] at hl
    refine ⟨[e], hl.1, ?_⟩
    rw [hs.accounts]
    have hg : gainedBy w e = gainedBySync w m := by unfold gainedBy; rw [he.kind, h.reply]
    simp [hg, afterSync, resetCrypto]
  · have hg : gainedBy w e = gainedBySync w m := by unfold gainedBy; rw [he.kind, h.reply]
    have ha := h.before.accounts
    simp only at ha
    rcases h.end_ with ⟨_, _, h1⟩ | ⟨_, f, h1, h2, _⟩
    · refine ⟨[e], h1, ?_⟩
      rw [h.after.1]
      simp only [ha]
      simp [hg, afterSync, resetCrypto]
    · refine ⟨[e, f], h1, ?_⟩
      have hf : gainedBy w f = [] := by unfold gainedBy; rw [h2.kind]
      rw [h.after.1]
      simp only [ha]
      simp [hg, hf, afterSync, resetCrypto]

theorem grows_run (w : World σ α) (c : Call) (s : St σ α) : Grows w s (run w c s).2 := by
  have hl : ∀ {β : Type} (o : Outcome β) (s : St σ α), Grows w s (M.lift o s).2 := fun _ s => .refl w s
  have hend : ∀ s, Grows w s (end_ w s).2 := fun s =>
    Grows.bind (m := exchange w .end_ [some (dialogEndSeg s.d.dialogId)] s.d.version)
      (g := fun m => M.lift (checkAcks m)) (grows_exchange w (Or.inr rfl) _ _) (fun _ => hl _) s
  have haend : ∀ s, Grows w s (anonymousEnd w s).2 := fun s =>
    Grows.bind (m := exchangePlain w .end_ [some (dialogEndSeg s.d.dialogId)] s.d.version)
      (g := fun m => M.lift (checkAcks m)) (grows_exchangePlain w (Or.inr rfl) _ _) (fun _ => hl _) s
  have hjob : ∀ j s, Grows w s (job w j s).2 := fun j =>
    Grows.bind (grows_exchange w (Or.inl rfl) _ _) fun _ => Grows.bind (hl _) fun _ => hl _
  have hajob : ∀ j s, Grows w s (anonymousJob w j s).2 := fun j =>
    Grows.bind (grows_exchangePlain w (Or.inl rfl) _ _) fun _ => Grows.bind (hl _) fun _ => hl _
  have hens : ∀ s, Grows w s (ensureClientSystemId w s).2 := by
    intro s
    rw [ensure_state]
    split
    · exact grows_sync w s
    · exact .refl w s
  have hinit : ∀ s, Grows w s (init w s).2 := Grows.bind hens fun _ => grows_open w
  cases c with
  | send j => exact Grows.bind hinit (fun _ => Grows.deferred (hjob j) hend) s
  | sendAnonymous j => exact Grows.bind (grows_anonymousInit w) (fun _ => Grows.deferred (hajob j) haend) s
  | sync => exact grows_sync w s
  | syncUser => exact Grows.bind hinit (fun _ => Grows.deferred (hl _) hend) s
  | setPin p => exact ⟨[], by simp [run, void, setPin, M.modify], by simp [run, void, setPin, M.modify]⟩

/-- C29: after every history, the accounts are those there were, followed by what every
answered synchronisation and initialisation brought, in order; nothing is replaced and
nothing is recognised as known already. -/
theorem C29_accounts (w : World σ α) (cs : List Call) : ∀ s : St σ α,
    ∃ E, (runAll w cs s).sent = s.sent ++ E ∧ (runAll w cs s).d.accounts = s.d.accounts ++ E.flatMap (gainedBy w) := by
  induction cs with
  | nil => exact fun s => Grows.refl w s
  | cons c cs ih => exact fun s => (grows_run w c s).trans (ih _)

/-- C29: what an accepted initialisation brings is one account for every HIUPD segment, in
order. -/
theorem C29_per_answer (w : World σ α) (e : Sent σ) (m : Decrypted σ) (hk : e.kind = .init) (hm : e.reply = .ok m)
    (ha : Accepts w m) :
    List.Forall₂ (fun x a => viewOf w.views.account x = .ok a) (m.segments c!"HIUPD") (gainedBy w e) := by
  have : gainedBy w e = accountPrefix w (m.segments c!"HIUPD") := by
    unfold gainedBy gainedByInit accountsIn
    rw [hk, hm]
    simp only
    rw [(dialogIdOf_iff m).2 ha.dialogId, (bankReadable_iff w m).2 ha.bank, (userReadable_iff w m).2 ha.user]
    rfl
  rw [this]
  exact (accountsReadable_ok w _).1 ((accountsReadable_iff w _).2 ha.accounts)

theorem flatMap_const {β γ : Type} {L : List γ} {E : List β} {f : β → List γ} {p : β → Bool}
    (h1 : ∀ e ∈ E, p e = true → f e = L) (h2 : ∀ e ∈ E, p e = false → f e = []) :
    E.flatMap f = (List.replicate (E.filter p).length L).flatten := by
  induction E with
  | nil => simp
  | cons e E ih =>
    have := ih (fun x hx => h1 x (List.mem_cons_of_mem _ hx)) (fun x hx => h2 x (List.mem_cons_of_mem _ hx))
    cases hp : p e with
    | true => simp [hp, h1 e (by simp) hp, this, List.replicate_succ]
    | false => simp [hp, h2 e (by simp) hp, this]

/-- C29: a bank that describes the same accounts in every answered initialisation and
synchronisation makes the dialog hold each of them once per answer. -/
theorem C29_duplicates (w : World σ α) (cs : List Call) (s : St σ α) (L : List α)
    (h : ∀ E, (runAll w cs s).sent = s.sent ++ E → ∀ e ∈ E, e.kind = .sync ∨ e.kind = .init → gainedBy w e = L) :
    ∃ E, (runAll w cs s).sent = s.sent ++ E ∧ (runAll w cs s).d.accounts = s.d.accounts ++
      (List.replicate (E.filter fun e => e.kind == .sync || e.kind == .init).length L).flatten := by
  obtain ⟨E, h1, h2⟩ := C29_accounts w cs s
  refine ⟨E, h1, ?_⟩
  rw [h2, flatMap_const (p := fun e => e.kind == .sync || e.kind == .init)]
  · intro e he hk
    refine h E h1 e he ?_
    simpa using hk
  · intro e _ hk
    unfold gainedBy
    simp only [Bool.or_eq_false_iff, beq_eq_false_iff_ne] at hk
    cases hx : e.kind with
    | sync => exact absurd hx hk.1
    | init => exact absurd hx hk.2
    | job => rfl
    | end_ => rfl

example : (runAll (Sample.world Sample.good) [.send Sample.work, .send Sample.work] (Sample.fresh Sample.good)).d.accounts =
    [b!"HIUPD:4:6+1'", b!"HIUPD:4:6+1'", b!"HIUPD:4:6+1'"] := Sample.accounts_twice

/-! ## C30: security functions -/

/-- Both providers use the same security function: the dialog's, or the one-step function. -/
def FunctionsAgree (d : Dialog σ α) : Prop :=
  d.sig.securityFn = d.crypto.securityFn ∧ (d.sig.securityFn = d.securityFn ∨ d.sig.securityFn = c!"999")

/-- C30: in every history of a PIN/TAN dialog, both providers use the same security function;
it is the dialog's, or 999. -/
theorem C30_invariant (w : World σ α) (cs : List Call) (bank : BankId) (user : Str) (v : Version) (pn pv : Str) (n : Nat)
    (log : List (Sent σ)) : FunctionsAgree (runAll w cs ⟨newPinTanDialog w bank user v pn pv, n, log⟩).d := by
  refine Pres.all (P := FunctionsAgree) (fun c s h => Pres.call w ?_ ?_ ?_ ?_ ?_ ?_ ?_ c s h) cs _ ?_
  · intro d n h; exact h
  · intro d i h; exact h
  · intro d d' st se hc h
    unfold core at hc
    simp only [St.mk.injEq, Dialog.mk.injEq, and_true, true_and] at hc
    have h1 : d.sig = d'.sig := by tauto
    have h2 : d.crypto = d'.crypto := by tauto
    have h3 : d.securityFn = d'.securityFn := by tauto
    unfold FunctionsAgree at h ⊢
    rwa [← h1, ← h2, ← h3]
  · intro d fn m _ _; exact ⟨rfl, Or.inl rfl⟩
  · intro d id h; exact h
  · intro d h; exact h
  · intro d pin s hs h; exact ⟨rfl, Or.inr rfl⟩
  · exact ⟨rfl, Or.inr rfl⟩

theorem updateSecurityFunction_ok {w : World σ α} {m : Decrypted σ} {s : St σ α}
    (h : (updateSecurityFunction w m s).1 = .ok ()) (h1 : find m c!"HITANS" ≠ none) (h2 : securityAck m ≠ none) :
    ∃ fn, Announces w m fn ∧ (updateSecurityFunction w m s).2.d.securityFn = fn ∧
      (s.d.securityFn = fn → (updateSecurityFunction w m s).2 = s) ∧
      (s.d.securityFn ≠ fn → (updateSecurityFunction w m s).2.d.sig.securityFn = fn ∧
        (updateSecurityFunction w m s).2.d.crypto.securityFn = fn) := by
  unfold updateSecurityFunction at h ⊢
  rw [if_neg] at h ⊢
  · split at h
    · simp at h
    · simp at h
    · rename_i fs hfs
      split at h
      · simp at h
      · rename_i fn hfn
        refine ⟨fn, supportedFunctions_mem w m fs hfs fn (List.mem_of_getElem? hfn), ?_⟩
        by_cases hx : s.d.securityFn = fn
        · simp [hx]
        · simp [hx, setSecurityFunction]
  · simp only [Option.isNone_iff_eq_none, Bool.or_eq_true, not_or]
    exact ⟨h1, h2⟩
  · simp only [Option.isNone_iff_eq_none, Bool.or_eq_true, not_or]
    exact ⟨h1, h2⟩

/-- The last message of the log got this answer. -/
def LastReply (s : St σ α) (m : Decrypted σ) : Prop := ∃ e, s.sent.getLast? = some e ∧ e.reply = .ok m

/-- C30: after a successful initialisation whose answer announces security functions, the
dialog uses one that is both announced and described.  If that is a new one, both providers
use it; if not, they go on using what they used. -/
theorem C30_negotiated (w : World σ α) (s : St σ α) (h : (open_ w s).1 = .ok ()) :
    ∃ m, LastReply (open_ w s).2 m ∧ (find m c!"HITANS" ≠ none → securityAck m ≠ none →
      Announces w m (open_ w s).2.d.securityFn ∧
      ((open_ w s).2.d.securityFn ≠ s.d.securityFn →
        (open_ w s).2.d.sig.securityFn = (open_ w s).2.d.securityFn ∧
        (open_ w s).2.d.crypto.securityFn = (open_ w s).2.d.securityFn) ∧
      ((open_ w s).2.d.securityFn = s.d.securityFn →
        (open_ w s).2.d.sig.securityFn = s.d.sig.securityFn ∧
        (open_ w s).2.d.crypto.securityFn = s.d.crypto.securityFn)) := by
  rcases open_spec w s with ⟨_, h1, _⟩ | ⟨_, e, he, h1, h2⟩
  · exact absurd h (h1 ())
  · by_cases hm : ∃ m, e.reply = .ok m
    · obtain ⟨m, hm⟩ := hm
      have ho := h1 m hm
      rw [ho] at h ⊢
      have hl := logs_of_outer (opened_outer w m (afterInit s e))
      unfold logs at hl
      simp only [Prod.mk.injEq] at hl
      refine ⟨m, ⟨e, by rw [hl.1]; simp [afterInit], hm⟩, ?_⟩
      intro hf ha
      unfold opened at h ⊢
      obtain ⟨_, _, e1⟩ := M.bind_ok h
      rw [e1] at h ⊢
      obtain ⟨_, _, e2⟩ := M.bind_ok h
      rw [e2] at h ⊢
      obtain ⟨_, _, e3⟩ := M.bind_ok h
      rw [e3] at h ⊢
      obtain ⟨_, _, e4⟩ := M.bind_ok h
      rw [e4] at h ⊢
      obtain ⟨_, _, e5⟩ := M.bind_ok h
      rw [e5] at h ⊢
      simp only [M.lift] at h ⊢
      have k1 := (parseBank_core w m).mid_of_core (takeDialogId m (afterInit s e)).2
      have k2 := (parseUPD_core w m).mid_of_core (parseBankParameterData w m (takeDialogId m (afterInit s e)).2).2
      rw [k1] at k2
      generalize (parseUserParameterData w m (parseBankParameterData w m (takeDialogId m (afterInit s e)).2).2).2 = t at *
      have ht : (mid (takeDialogId m (afterInit s e)).2).2 = (mid s).2 := by
        unfold takeDialogId
        cases m.header.dialogId <;> rfl
      have ht' : (mid t).2 = (mid s).2 := by rw [k2]; exact ht
      unfold mid at ht'
      simp only [Prod.mk.injEq] at ht'
      obtain ⟨fn, q1, q2, q3, q4⟩ := updateSecurityFunction_ok h hf ha
      rw [ht'.1] at q3 q4
      refine ⟨by rw [q2]; exact q1, ?_, ?_⟩
      · intro hne
        rw [q2] at hne ⊢
        exact q4 fun hx => hne hx.symm
      · intro heq
        rw [q2] at heq
        rw [q3 heq.symm]
        exact ht'.2
    · push Not at hm
      exact absurd h ((h2 hm).1 ())

/-- C30: setting the PIN lets both providers fall back to the one-step function while the
dialog keeps the negotiated one.  If the bank announces no other function afterwards, the
next initialisation does not correct this. -/
theorem C30_pin (w : World σ α) (s : St σ α) (pin : Str) :
    let s' := (setPin w pin s).2
    s'.d.securityFn = s.d.securityFn ∧ s'.d.sig.securityFn = c!"999" ∧ s'.d.crypto.securityFn = c!"999" ∧
    ((open_ w s').1 = .ok () →
      ∃ m, LastReply (open_ w s').2 m ∧
        ((∀ fn, Announces w m fn → fn = s.d.securityFn) → find m c!"HITANS" ≠ none → securityAck m ≠ none →
          (open_ w s').2.d.securityFn = s.d.securityFn ∧ (open_ w s').2.d.sig.securityFn = c!"999" ∧
          (open_ w s').2.d.crypto.securityFn = c!"999")) := by
  refine ⟨rfl, rfl, rfl, ?_⟩
  intro h
  obtain ⟨m, h1, h2⟩ := C30_negotiated w _ h
  refine ⟨m, h1, ?_⟩
  intro hall hf ha
  obtain ⟨q1, _, q3⟩ := h2 hf ha
  have := hall _ q1
  exact ⟨this, q3 this⟩

example : (runAll (Sample.world Sample.functions) [.send Sample.work] (Sample.known Sample.functions)).d.sig.securityFn = c!"910" ∧
    (runAll (Sample.world Sample.functions) [.send Sample.work, .setPin c!"neu", .send Sample.work]
      (Sample.known Sample.functions)).d.sig.securityFn = c!"999" ∧
    (runAll (Sample.world Sample.functions) [.send Sample.work, .setPin c!"neu", .send Sample.work]
      (Sample.known Sample.functions)).d.securityFn = c!"910" :=
  Sample.function_lost

/-! ## C31: where synchronisations start -/

/-- C31: a synchronisation starts with the next message number and the dialog ID left behind,
whatever happened before; its end carries the number after that and the new dialog ID. -/
theorem C31_start (w : World σ α) (s : St σ α) (e : Sent σ) (rest : List (Sent σ))
    (h : (syncClientSystemId w s).2.sent = s.sent ++ e :: rest) :
    e.kind = .sync ∧ number e = s.d.messageCount + 1 ∧ dialogOf e = s.d.dialogId ∧
    (∀ m, e.reply = .ok m → (syncClientSystemId w s).2.d.dialogId = m.header.dialogId.getD s.d.dialogId) ∧
    ((∀ m, e.reply ≠ .ok m) → (syncClientSystemId w s).2.d.dialogId = s.d.dialogId) ∧
    (rest = [] → (syncClientSystemId w s).2.d.messageCount = s.d.messageCount + 1 ∨
      (syncClientSystemId w s).2.d.messageCount = s.d.messageCount + 2) ∧
    (rest ≠ [] → (syncClientSystemId w s).2.d.messageCount = s.d.messageCount + 2) := by
  rcases sync_spec w s with h' | ⟨e', he, h' | ⟨m, h'⟩ | ⟨m, t, h'⟩⟩
  · rw [h'.state] at h
    have := congrArg List.length h
    simp at this
  · rw [h'.state] at h ⊢
    have hx := List.append_cancel_left (as := s.sent) (show s.sent ++ [e'] = s.sent ++ e :: rest from h)
    simp only [List.cons.injEq] at hx
    obtain ⟨rfl, rfl⟩ := hx
    refine ⟨he.kind, (logged_number he).1, (logged_number he).2.2.1, ?_, fun _ => rfl, fun _ => Or.inl rfl, by simp⟩
    intro m hm
    exact absurd hm (h'.reply m)
  · obtain ⟨o, hs⟩ := h'.state
    have hl := hs.logs
    unfold logs at hl
    simp only [Prod.mk.injEq] at hl
    rw [hl.1] at h
    have hx := List.append_cancel_left (as := s.sent) (show s.sent ++ [e'] = s.sent ++ e :: rest from h)
    simp only [List.cons.injEq] at hx
    obtain ⟨rfl, rfl⟩ := hx
    refine ⟨he.kind, (logged_number he).1, (logged_number he).2.2.1, ?_, ?_, fun _ => Or.inl hl.2.2.1, by simp⟩
    · intro m' hm'
      rw [h'.reply] at hm'
      simp only [Outcome.ok.injEq] at hm'
      rw [← hm']
      exact hs.dialogId
    · intro hn
      exact absurd h'.reply (hn m)
  · have hd : (syncClientSystemId w s).2.d.dialogId = m.header.dialogId.getD s.d.dialogId := by
      rw [h'.after.1]
      exact h'.before.dialogId
    have hc : (syncClientSystemId w s).2.d.messageCount = s.d.messageCount + 2 := by rw [h'.after.1]
    have hx : e' = e := by
      rcases h'.end_ with ⟨_, _, h1⟩ | ⟨_, f, h1, _⟩
      · rw [h1] at h
        have hx := List.append_cancel_left h
        simp only [List.cons.injEq] at hx
        exact hx.1
      · rw [h1] at h
        have hx := List.append_cancel_left h
        simp only [List.cons.injEq] at hx
        exact hx.1
    subst hx
    refine ⟨he.kind, (logged_number he).1, (logged_number he).2.2.1, ?_, ?_, fun _ => Or.inr hc, fun _ => hc⟩
    · intro m' hm'
      rw [h'.reply] at hm'
      simp only [Outcome.ok.injEq] at hm'
      rw [← hm']
      exact hd
    · intro hn
      exact absurd h'.reply (hn m)

/-- C31: after a dialog that was opened, used and closed as it should be, the next
synchronisation starts with number 4 and the ID of the closed dialog. -/
theorem C31_after_send (w : World σ α) (j : Job) (s : St σ α) (hid : s.d.clientSystemId ≠ c!"0") (a g f : Sent σ)
    (m : Decrypted σ) (hsent : (sendMessage w j s).2.sent = s.sent ++ [a, g, f]) (ha : a.reply = .ok m)
    (e : Sent σ) (rest : List (Sent σ))
    (hs : (syncClientSystemId w (sendMessage w j s).2).2.sent = (sendMessage w j s).2.sent ++ e :: rest) :
    number e = 4 ∧ m.header.dialogId = some (dialogOf e) := by
  obtain ⟨_, h1, h2, _⟩ := C31_start w _ e rest hs
  rw [h1, h2]
  rw [send_known w j s hid] at hsent ⊢
  obtain ⟨_, k1, k2⟩ := open_log w s
  by_cases h : (open_ w s).1 = .ok ()
  · rw [M.bind_of_ok h] at hsent ⊢
    obtain ⟨hr, hn, e', m', h3, h4, h5, h6, h7⟩ := k2 h
    obtain ⟨q0, _, f', q1, q2⟩ := close_spec w j (open_ w s).2 hr
    rw [q0, hn]
    refine ⟨by norm_num, ?_⟩
    rcases q2 with ⟨q2, q3, q4⟩ | ⟨q2, g', q3, q4, q5, q6⟩
    · rw [q3, h3] at hsent
      have := congrArg List.length hsent
      simp at this
    · rw [q4, h3] at hsent
      have hx := List.append_cancel_left (as := s.sent)
        (show s.sent ++ [e', g', f'] = s.sent ++ [a, g, f] by simpa using hsent)
      simp only [List.cons.injEq, and_true] at hx
      obtain ⟨rfl, rfl, rfl⟩ := hx
      rw [h5] at ha
      simp only [Outcome.ok.injEq] at ha
      rw [← ha]
      exact h7
  · obtain ⟨k3, _, _⟩ := M.bind_notOk (f := fun _ => M.deferred (job w j) (end_ w)) (fun b hb => h hb)
    rw [k3] at hsent
    obtain ⟨D, h3, h4⟩ := k1 h
    rw [h3] at hsent
    have hx := List.append_cancel_left hsent
    subst hx
    cases h4 none with
    | full _ _ _ _ _ _ _ hx => cases hx

example : Sample.trace (runAll (Sample.world Sample.bad) [.sync, .sync] (Sample.fresh Sample.bad)) =
    [(.sync, 1, c!"0"), (.sync, 2, c!"dia1")] := Sample.sync_twice

/-- `m` does not lower the message number. -/
def Climbs {β : Type} (m : M σ α β) : Prop := ∀ s, s.d.messageCount ≤ (m s).2.d.messageCount

theorem Climbs.bind {β γ : Type} {m : M σ α β} {g : β → M σ α γ} (h1 : Climbs m) (h2 : ∀ b, Climbs (g b)) :
    Climbs (m.bind g) := by
  intro s
  unfold M.bind
  have := h1 s
  rcases h : m s with ⟨r, s'⟩
  rw [h] at this
  cases r with
  | ok b => exact this.trans (h2 b s')
  | err => exact this
  | panic => exact this

theorem Climbs.lift {β : Type} (o : Outcome β) : Climbs (M.lift (σ := σ) (α := α) o) := fun _ => le_refl _

theorem sync_count (w : World σ α) (s : St σ α) : s.d.messageCount + 1 ≤ (syncClientSystemId w s).2.d.messageCount := by
  rcases sync_spec w s with h' | ⟨e', he, h' | ⟨m, h'⟩ | ⟨m, t, h'⟩⟩
  · rw [h'.state]
  · rw [h'.state]; exact le_refl _
  · obtain ⟨o, hs⟩ := h'.state
    have hl := hs.logs
    unfold logs at hl
    simp only [Prod.mk.injEq] at hl
    rw [hl.2.2.1]
    exact le_refl _
  · rw [h'.after.1]
    show s.d.messageCount + 1 ≤ s.d.messageCount + 2
    omega

theorem open_count (w : World σ α) (s : St σ α) : (open_ w s).2.d.messageCount = 1 := by
  rcases open_spec w s with ⟨_, _, _, h3, _⟩ | ⟨_, e, he, h1, h2⟩
  · rw [h3]
  · by_cases hm : ∃ m, e.reply = .ok m
    · obtain ⟨m, hm⟩ := hm
      rw [h1 m hm]
      have hl := logs_of_outer (opened_outer w m (afterInit s e))
      unfold logs at hl
      simp only [Prod.mk.injEq] at hl
      exact hl.2.2.1
    · push Not at hm
      rw [(h2 hm).2.1]
      rfl

theorem anonymousInit_count (w : World σ α) (s : St σ α) : (anonymousInit w s).2.d.messageCount = 1 := by
  rcases anonymousInit_spec w s with ⟨_, _, h3⟩ | ⟨e, he, _, h1, h2⟩
  · rw [h3]
  · by_cases hm : ∃ m, e.reply = .ok m
    · obtain ⟨m, hm⟩ := hm
      rw [h1 m hm]
      have hl := logs_of_outer (anonymousOpened_outer w m (afterInit s e))
      unfold logs at hl
      simp only [Prod.mk.injEq] at hl
      exact hl.2.2.1
    · push Not at hm
      rw [(h2 hm).2]
      rfl

/-- The call only replaces the PIN. -/
def Call.IsSetPin (c : Call) : Prop := ∃ p, c = .setPin p

theorem run_count (w : World σ α) (c : Call) (s : St σ α) (hc : ¬ c.IsSetPin) (h0 : 0 ≤ s.d.messageCount) :
    1 ≤ (run w c s).2.d.messageCount := by
  have hx : ∀ k segs v, Climbs (exchange w k segs v) := by
    intro k segs v s
    rw [(exchange_spec w k segs v s).1]
    show s.d.messageCount ≤ s.d.messageCount + 1
    omega
  have hp : ∀ k segs v, Climbs (exchangePlain w k segs v) := by
    intro k segs v s
    rw [(exchangePlain_spec w k segs v s).1]
    show s.d.messageCount ≤ s.d.messageCount + 1
    omega
  have hend : Climbs (end_ w) := by
    intro s
    rw [(end_spec w s).1]
    show s.d.messageCount ≤ s.d.messageCount + 1
    omega
  have haend : Climbs (anonymousEnd w) := by
    intro s
    rw [(anonymousEnd_spec w s).1]
    show s.d.messageCount ≤ s.d.messageCount + 1
    omega
  have hjob : ∀ j, Climbs (job w j) := fun j => .bind (hx _ _ _) fun _ => .bind (.lift _) fun _ => .lift _
  have hajob : ∀ j, Climbs (anonymousJob w j) := fun j => .bind (hp _ _ _) fun _ => .bind (.lift _) fun _ => .lift _
  have hdef : ∀ {β : Type} (m : M σ α β) (l : M σ α Unit), Climbs m → Climbs l → Climbs (M.deferred m l) :=
    fun m l h1 h2 s => (h1 s).trans (h2 _)
  have hafter : ∀ {β γ : Type} (m : M σ α β) (g : β → M σ α γ) (s : St σ α), 1 ≤ (m s).2.d.messageCount →
      (∀ b, Climbs (g b)) → 1 ≤ ((m.bind g) s).2.d.messageCount := by
    intro β γ m g s h1 h2
    unfold M.bind
    rcases h : m s with ⟨r, s'⟩
    rw [h] at h1
    cases r with
    | ok b => exact h1.trans (h2 b s')
    | err => exact h1
    | panic => exact h1
  have hinit : 1 ≤ (init w s).2.d.messageCount := by
    unfold init M.bind
    have h1 := ensure_state w s
    have h2 := ensure_result w s
    rcases h : ensureClientSystemId w s with ⟨r, s'⟩
    rw [h] at h1 h2
    have key : (∀ b, r ≠ .ok b) → 1 ≤ s'.d.messageCount := by
      intro hr
      by_cases hid : s.d.clientSystemId = c!"0"
      · rw [if_pos hid] at h1
        have h1 : s' = (syncClientSystemId w s).2 := h1
        rw [h1]
        have := sync_count w s
        omega
      · rw [if_neg hid] at h2
        exact absurd h2 (hr _)
    cases r with
    | ok b => exact (open_count w s').ge
    | err => exact key (by simp)
    | panic => exact key (by simp)
  cases c with
  | send j => exact hafter _ _ s hinit fun _ => hdef _ _ (hjob j) hend
  | sendAnonymous j => exact hafter _ _ s (anonymousInit_count w s).ge fun _ => hdef _ _ (hajob j) haend
  | sync =>
    have := sync_count w s
    show 1 ≤ (syncClientSystemId w s).2.d.messageCount
    omega
  | syncUser => exact hafter _ _ s hinit fun _ => hdef _ _ (.lift _) hend
  | setPin p => exact absurd ⟨p, rfl⟩ hc

theorem history_count (w : World σ α) (cs : List Call) : ∀ s : St σ α, 0 ≤ s.d.messageCount →
    ((∀ c ∈ cs, c.IsSetPin) → (runAll w cs s).d.messageCount = s.d.messageCount ∧ (runAll w cs s).d.dialogId = s.d.dialogId) ∧
    ((∃ c ∈ cs, ¬ c.IsSetPin) ∨ 1 ≤ s.d.messageCount → 1 ≤ (runAll w cs s).d.messageCount) := by
  induction cs with
  | nil => intro s h; exact ⟨fun _ => ⟨rfl, rfl⟩, by simp [runAll]⟩
  | cons c cs ih =>
    intro s h
    by_cases hc : c.IsSetPin
    · obtain ⟨p, rfl⟩ := hc
      have hd : (run w (.setPin p) s).2.d.messageCount = s.d.messageCount := rfl
      have hi : (run w (.setPin p) s).2.d.dialogId = s.d.dialogId := rfl
      obtain ⟨h1, h2⟩ := ih (run w (.setPin p) s).2 (by rw [hd]; exact h)
      rw [hd, hi] at h1
      rw [hd] at h2
      refine ⟨fun hall => h1 fun c hc => hall c (List.mem_cons_of_mem _ hc), ?_⟩
      rintro (⟨x, hx, hn⟩ | hx)
      · refine h2 (Or.inl ⟨x, ?_, hn⟩)
        rcases List.mem_cons.1 hx with rfl | hx
        · exact absurd ⟨p, rfl⟩ hn
        · exact hx
      · exact h2 (Or.inr hx)
    · have hr := run_count w c s hc h
      obtain ⟨_, h2⟩ := ih (run w c s).2 (by omega)
      exact ⟨fun hall => absurd (hall c (by simp)) hc, fun _ => h2 (Or.inr hr)⟩

/-- C31: the first message of a synchronisation has number 1 and dialog ID "0" exactly if
nothing but the PIN was set before; after any other call its number is at least 2. -/
theorem C31_first (w : World σ α) (cs : List Call) (bank : BankId) (user : Str) (v : Version) (pn pv : Str) (n : Nat)
    (log : List (Sent σ)) (e : Sent σ) (rest : List (Sent σ)) (s : St σ α)
    (hs : s = runAll w cs ⟨newPinTanDialog w bank user v pn pv, n, log⟩)
    (h : (syncClientSystemId w s).2.sent = s.sent ++ e :: rest) :
    ((∀ c ∈ cs, ∃ p, c = .setPin p) → number e = 1 ∧ dialogOf e = c!"0") ∧
    ((∃ c ∈ cs, ∀ p, c ≠ .setPin p) → 2 ≤ number e) := by
  obtain ⟨_, h1, h2, _⟩ := C31_start w s e rest h
  obtain ⟨k1, k2⟩ := history_count w cs ⟨newPinTanDialog w bank user v pn pv, n, log⟩ (le_refl _)
  rw [← hs] at k1 k2
  constructor
  · intro hall
    obtain ⟨q1, q2⟩ := k1 hall
    rw [h1, h2, q1, q2]
    exact ⟨rfl, rfl⟩
  · rintro ⟨c, hc, hx⟩
    have := k2 (Or.inl ⟨c, hc, fun ⟨p, hp⟩ => hx p hp⟩)
    omega

example : Sample.trace (runAll (Sample.world Sample.good) [.setPin c!"1234", .sync] (Sample.fresh Sample.good)) =
    [(.sync, 1, c!"0"), (.end_, 2, c!"dia1")] := Sample.sync_first

/-! ## C76: anonymous dialogs -/

/-- The dialog with other keys. -/
def rekey (sig : SignatureProvider) (crypto : CryptoProvider) (s : St σ α) : St σ α :=
  { s with d := { s.d with sig := sig, crypto := crypto } }

/-- `m` does the same whatever the keys. -/
def Blind {β : Type} (m : M σ α β) : Prop :=
  ∀ sig crypto s, m (rekey sig crypto s) = ((m s).1, rekey sig crypto (m s).2)

theorem Blind.bind {β γ : Type} {m : M σ α β} {g : β → M σ α γ} (h1 : Blind m) (h2 : ∀ b, Blind (g b)) :
    Blind (m.bind g) := by
  intro sig crypto s
  unfold M.bind
  rw [h1 sig crypto s]
  rcases h : m s with ⟨r, s'⟩
  cases r with
  | ok b => exact h2 b sig crypto s'
  | err => rfl
  | panic => rfl

theorem Blind.lift {β : Type} (o : Outcome β) : Blind (M.lift (σ := σ) (α := α) o) := fun _ _ _ => rfl

theorem Blind.deferred {β : Type} {m : M σ α β} {l : M σ α Unit} (h1 : Blind m) (h2 : Blind l) : Blind (M.deferred m l) := by
  intro sig crypto s
  simp only [M.deferred, h1 sig crypto s, h2 sig crypto (m s).2]

theorem blind_exchangePlain (w : World σ α) (k : Kind) (segs : List (Option Seg)) (v : Version) :
    Blind (exchangePlain w k segs v) := by
  refine .bind (fun _ _ _ => rfl) fun m => .bind (.lift _) fun m => ?_
  intro sig crypto s
  unfold request
  cases m.marshal <;> rfl

theorem blind_accounts (w : World σ α) (xs : List (Decoded σ)) : Blind (parseAccounts w xs) := by
  induction xs with
  | nil => exact .lift _
  | cons x xs ih => exact .bind (.lift _) fun a => .bind (fun _ _ _ => rfl) fun _ => ih

theorem blind_pinTan (w : World σ α) (m : Decrypted σ) : Blind (parsePinTan w m) := by
  unfold parsePinTan
  split
  · exact .lift _
  · exact .bind (.lift _) fun _ => fun _ _ _ => rfl
  
theorem blind_anonymous (w : World σ α) (j : Job) : Blind (sendAnonymousMessage w j) := by
  have hend : Blind (anonymousEnd w) := fun sig crypto s =>
    Blind.bind (blind_exchangePlain w _ _ _) (fun _ => .lift _) sig crypto s
  have hjob : Blind (anonymousJob w j) := .bind (blind_exchangePlain w _ _ _) fun _ => .bind (.lift _) fun _ => .lift _
  have hbank : ∀ m, Blind (parseBankParameterData w m) := by
    intro m
    unfold parseBankParameterData
    split
    · exact .lift _
    · exact .bind (.lift _) fun _ => .bind (fun _ _ _ => rfl) fun _ => .bind (.lift _) fun _ => .bind (fun _ _ _ => rfl) fun _ =>
        .bind (blind_pinTan w m) fun _ => fun _ _ _ => rfl
  have huser : ∀ m, Blind (parseUser w m) := by
    intro m
    unfold parseUser
    split
    · exact .lift _
    · exact .bind (.lift _) fun _ => fun _ _ _ => rfl
  have htake : ∀ m : Decrypted σ, Blind (takeDialogId (α := α) m) := by
    intro m sig crypto s
    unfold takeDialogId
    cases m.header.dialogId <;> rfl
  have hopened : ∀ m, Blind (anonymousOpened w m) := fun m =>
    .bind (htake m) fun _ => .bind (hbank m) fun _ => .bind (.bind (huser m) fun _ => blind_accounts w _) fun _ =>
      .bind (.lift _) fun _ => .lift _
  have hinit : Blind (anonymousInit w) := by
    refine .bind (fun _ _ _ => rfl) fun _ => ?_
    intro sig crypto s
    exact Blind.bind (blind_exchangePlain w _ _ _) hopened sig crypto s
  exact .bind hinit fun _ => .deferred hjob hend

/-- C76: an anonymous dialog opens with number 1 and dialog ID "0", and neither its messages
nor its result depend on the PIN: the same messages are sent, bytes and all, whichever PIN
was set. -/
theorem C76_no_pin (w : World σ α) (j : Job) (s : St σ α) (pin : Str) :
    (sendAnonymousMessage w j (setPin w pin s).2).1 = (sendAnonymousMessage w j s).1 ∧
    (sendAnonymousMessage w j (setPin w pin s).2).2.sent = (sendAnonymousMessage w j s).2.sent := by
  have := blind_anonymous w j (signatureProvider w s.d.bankId s.d.userId pin s.d.clientSystemId)
    (cryptoProvider s.d.bankId s.d.userId pin s.d.clientSystemId) s
  have he : (setPin w pin s).2 = rekey (signatureProvider w s.d.bankId s.d.userId pin s.d.clientSystemId)
    (cryptoProvider s.d.bankId s.d.userId pin s.d.clientSystemId) s := rfl
  rw [he, this]
  generalize sendAnonymousMessage w j s = r
  exact ⟨rfl, rfl⟩

/-- C76: every message of an anonymous dialog goes out as it is, without signature and
without encryption: the kinds are an initial part of initialisation, job, end, or
initialisation and end; the first has number 1 and dialog ID "0". -/
theorem C76_unsecured (w : World σ α) (j : Job) (s : St σ α) :
    ∃ D, (sendAnonymousMessage w j s).2.sent = s.sent ++ D ∧
      (∀ e ∈ D, e.wire = e.plain ∧ e.wire.sigBegin = none ∧ e.wire.sigEnd = none) ∧
      (D.map (·.kind) = [] ∨ D.map (·.kind) = [.init] ∨ D.map (·.kind) = [.init, .end_] ∨
        D.map (·.kind) = [.init, .job, .end_]) ∧
      (∀ e rest, D = e :: rest → number e = 1 ∧ dialogOf e = c!"0") := by
  obtain ⟨D, h1, h2, h3⟩ := anonymous_log w j s
  refine ⟨D, h1, h3, ?_⟩
  cases h2 with
  | unsent => simp
  | refused a segs ha _ =>
    refine ⟨by simp [ha.kind], ?_⟩
    rintro e rest he
    cases he
    exact ⟨(logged_number ha).1, (logged_number ha).2.2.1⟩
  | bare a f segs m i _ ha h4 _ h6 hf =>
    refine ⟨by simp [ha.kind, hf.kind], ?_⟩
    rintro e rest he
    cases he
    exact ⟨(logged_number ha).1, (logged_number ha).2.2.1⟩
  | unsendable a f segs m i k hk hx ha h4 _ h6 hf =>
    refine ⟨by simp [ha.kind, hf.kind], ?_⟩
    rintro e rest he
    cases he
    exact ⟨(logged_number ha).1, (logged_number ha).2.2.1⟩
  | full a g f segs m i k _ _ ha h4 _ h6 hg hf =>
    refine ⟨by simp [ha.kind, hf.kind, hg.kind], ?_⟩
    rintro e rest he
    cases he
    exact ⟨(logged_number ha).1, (logged_number ha).2.2.1⟩

example : Sample.trace (sendAnonymousMessage (Sample.world Sample.good) Sample.work (Sample.fresh Sample.good)).2 =
    [(.init, 1, c!"0"), (.job, 2, c!"dia1"), (.end_, 3, c!"dia1")] := Sample.trace_anonymous

end Verif.Dialog

import Verif.Client.BalanceProps
import Verif.Dialog.StateProps

/-
C82: the accounts a client reports.
-/

namespace Verif.Client

open GoLib Element Element.Spec Segment Message Domain Transport Dialog

variable {σ α β γ δ : Type}

theorem user_ok {w : World σ α} {s : St σ α} (h : (syncUserParameterData w s).1 = .ok ()) :
    ∃ S e m f, (syncUserParameterData w s).2.sent = s.sent ++ (S ++ [e, f]) ∧ (∀ b ∈ S, b.kind = .sync ∨ b.kind = .end_) ∧
      e.kind = .init ∧ e.reply = .ok m ∧ Accepts w m ∧ f.kind = .end_ := by
  unfold syncUserParameterData Dialog.init at h ⊢
  rw [M.bind_assoc] at h ⊢
  obtain ⟨x, h1, h2⟩ := M.bind_ok h
  rw [h2] at h ⊢
  obtain ⟨y, h3, h4⟩ := M.bind_ok h
  rw [h4] at h ⊢
  have key : ∃ S, (ensureClientSystemId w s).2.sent = s.sent ++ S ∧ ∀ e ∈ S, e.kind = .sync ∨ e.kind = .end_ := by
    rw [ensure_state]
    split
    · obtain ⟨S, k1, k2, _⟩ := sync_log w s
      refine ⟨S, k1, ?_⟩
      cases k2 with
      | unsent => simp
      | request a _ ha => simp [ha.kind]
      | full a f _ _ _ ha _ _ _ hf => simp [ha.kind, hf.kind]
    · exact ⟨[], by simp, by simp⟩
  obtain ⟨S, hS, hk⟩ := key
  generalize (ensureClientSystemId w s).2 = t at *
  obtain ⟨hv, _, ho⟩ := open_log w t
  obtain ⟨hr, hn, e, m, o1, o2, o3, o4, o5⟩ := ho h3
  obtain ⟨_, _, f, q1, q2, _⟩ := closeUser_spec w (open_ w t).2 hr
  exact ⟨S, e, m, f, by rw [q2, o1, hS]; simp, hk, o2.kind, o3, (acceptable_iff w m).1 o4, q1.kind⟩

/-- C82: when Accounts succeeds, the bank was asked once more, and the accounts its answer
describes come last.  Before them are the accounts there were already, and those of the answers to
synchronisations done for this call.  So an account the bank describes every time is reported
once more with every call. -/
theorem C82_accounts (u : Setup σ α β γ δ) (s t : CSt σ α) (xs : List α) (h : accounts u s = (.ok xs, t)) :
    ∃ (before : List (Sent σ)) (e f : Sent σ) (m : Decrypted σ) (fresh : List α),
      t.st.sent = s.st.sent ++ (before ++ [e, f]) ∧
      (∀ b ∈ before, b.kind = .sync ∨ b.kind = .end_) ∧ e.kind = .init ∧ e.reply = .ok m ∧ Accepts u.world m ∧ f.kind = .end_ ∧
      List.Forall₂ (fun x a => ∃ y, x = .other y ∧ u.world.views.account y = .ok a) (m.segments c!"HIUPD") fresh ∧
      xs = s.st.d.accounts ++ before.flatMap (gainedBy u.world) ++ fresh ∧ t.st.d.accounts = xs := by
  unfold accounts at h
  have hi : ∃ S, (init u s).2.st.sent = s.st.sent ++ S ∧ (∀ e ∈ S, e.kind = .sync ∨ e.kind = .end_) ∧
      (init u s).2.st.d.accounts = s.st.d.accounts ++ S.flatMap (gainedBy u.world) := by
    unfold init
    split
    · obtain ⟨S, k1, k2, _⟩ := sync_log u.world s.st
      obtain ⟨E, k3, k4⟩ := grows_sync u.world s.st
      rw [k1] at k3
      have := List.append_cancel_left k3
      subst this
      refine ⟨S, k1, ?_, k4⟩
      cases k2 with
      | unsent => simp
      | request a _ ha => simp [ha.kind]
      | full a f _ _ _ ha _ _ _ hf => simp [ha.kind, hf.kind]
    · exact ⟨[], by simp, by simp, by simp⟩
  obtain ⟨S, hS, hk, hg⟩ := hi
  generalize init u s = X at h hS hg
  obtain ⟨q, t0⟩ := X
  simp only at hS hg
  cases q with
  | err => simp at h
  | panic => simp at h
  | ok x =>
    simp only [Prod.mk.injEq] at h
    obtain ⟨h1, rfl⟩ := h
    obtain ⟨_, h2, h3⟩ := map_ok h1
    obtain ⟨S2, e, m, f, u1, u2, u3, u4, u5, u6⟩ := user_ok h2
    obtain ⟨E, g1, g2⟩ := grows_run u.world .syncUser t0.st
    have g1' : (syncUserParameterData u.world t0.st).2.sent = t0.st.sent ++ E := g1
    have g2' : (syncUserParameterData u.world t0.st).2.d.accounts = t0.st.d.accounts ++ E.flatMap (gainedBy u.world) := g2
    rw [u1] at g1'
    have := List.append_cancel_left g1'
    subst this
    refine ⟨S ++ S2, e, f, m, gainedBy u.world e, by rw [u1, hS]; simp, ?_, u3, u4, u5, u6, ?_, ?_, h3⟩
    · intro b hb
      rcases List.mem_append.1 hb with hb | hb
      · exact hk b hb
      · exact u2 b hb
    · have := C29_per_answer u.world e m u3 u4 u5
      refine this.imp fun x a hx => ?_
      cases x with
      | ack _ => simp [viewOf] at hx
      | other y => exact ⟨y, rfl, hx⟩
    · rw [← h3, g2', hg]
      have hf : gainedBy u.world f = [] := by unfold gainedBy; rw [u6]
      simp [hf]

/-- A client of a bank with one account that has been asked so often before. -/
def asked : Nat → CSt Bytes Bytes
  | 0 => ⟨Dialog.Sample.fresh Dialog.Sample.good, 0⟩
  | n + 1 => (accounts (Sample.setup Dialog.Sample.good fun n => n) (asked n)).2

/-- A new client reports the one account twice, and then more often. -/
theorem reported_again :
    (accounts (Sample.setup Dialog.Sample.good fun n => n) (asked 0)).1 = .ok (List.replicate 2 b!"HIUPD:4:6+1'") ∧
    (accounts (Sample.setup Dialog.Sample.good fun n => n) (asked 1)).1 = .ok (List.replicate 4 b!"HIUPD:4:6+1'") := by
  decide +kernel

example : (accounts (Sample.setup Dialog.Sample.good fun n => n) (asked 0)).1 = .ok (List.replicate 2 b!"HIUPD:4:6+1'") :=
  reported_again.1

end Verif.Client

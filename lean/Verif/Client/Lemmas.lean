import Verif.Client.MergeProps
import Verif.Dialog.Props

/-
What a call of the client does: lemmas for `Verif.Client.Props`.
-/

namespace Verif.Client

open GoLib Element Element.Spec Segment Message Domain Transport Dialog

variable {σ α β γ δ : Type}

/-! ## Sending -/

/-- The requests among the messages of a log. -/
def jobs (log : List (Sent σ)) : List (Sent σ) := log.filter fun e => e.kind = .job

theorem jobs_append (a b : List (Sent σ)) : jobs (a ++ b) = jobs a ++ jobs b := List.filter_append ..

theorem jobs_nil {a : List (Sent σ)} (h : ∀ e ∈ a, e.kind ≠ .job) : jobs a = [] := by
  unfold jobs
  rw [List.filter_eq_nil_iff]
  simpa using h

/-- No acknowledgement is an error. -/
def Accepted (m : Decrypted σ) : Prop := ∀ a ∈ m.acknowledgements, a.code < 9000

/-- What became of sending a job: it was not sent, or it was, between other messages, and
then the answer is returned exactly if it is readable and without errors, and the answer to the
dialog end does not crash. -/
def SendResult (w : World σ α) (j : Job) (log : List (Sent σ)) (r : Outcome (Decrypted σ)) : Prop :=
  ((∀ e ∈ log, e.kind ≠ .job) ∧ ∀ m, r ≠ .ok m) ∨
  ∃ pre g f v n id, log = pre ++ [g, f] ∧ (∀ e ∈ pre, e.kind ≠ .job) ∧ Logged w g .job v n id j.segments ∧ f.kind = .end_ ∧
    ∀ m, r = .ok m ↔ f.reply ≠ .panic ∧ g.reply = .ok m ∧ Accepted m

theorem opened_send_cases (w : World σ α) (j : Job) (s : Dialog.St σ α) :
    ∃ D, (((open_ w).bind fun _ => M.deferred (job w j) (end_ w)) s).2.sent = s.sent ++ D ∧
      SendResult w j D (((open_ w).bind fun _ => M.deferred (job w j) (end_ w)) s).1 := by
  obtain ⟨_, h1, h2⟩ := open_log w s
  by_cases h : (open_ w s).1 = .ok ()
  · rw [M.bind_of_ok h]
    obtain ⟨hr, _, e, m, h3, h4, h5, h6, h7⟩ := h2 h
    obtain ⟨_, _, f, q1, q2⟩ := close_spec w j (open_ w s).2 hr
    rcases q2 with ⟨q2, q3, q4⟩ | ⟨q2, g, q3, q4, q5, q6⟩
    · refine ⟨[e, f], by rw [q3, h3]; simp, .inl ⟨?_, q4⟩⟩
      simp [h4.kind, q1.kind]
    · refine ⟨[e, g, f], by rw [q4, h3]; simp, .inr ⟨[e], g, f, _, _, _, rfl, by simp [h4.kind], q3, q1.kind, ?_⟩⟩
      intro r
      by_cases hf : f.reply = .panic
      · have : acked f.reply = .panic := by rw [hf]; rfl
        rw [q5 this]
        simp [hf]
      · rw [q6 ((acked_panic _).2 hf), Dialog.bind_eq_ok]
        simp only [map_eq_ok, Accepted, ← checkAcks_iff]
        constructor
        · rintro ⟨b, h8, _, h9, rfl⟩
          exact ⟨hf, h8, h9⟩
        · rintro ⟨_, h8, h9⟩
          exact ⟨r, h8, (), h9, rfl⟩
  · obtain ⟨k1, k2, _⟩ := M.bind_notOk (f := fun _ => M.deferred (job w j) (end_ w)) (fun b hb => h hb)
    obtain ⟨D, h3, h4⟩ := h1 h
    refine ⟨D, by rw [k1, h3], .inl ⟨?_, k2⟩⟩
    cases h4 none with
    | unsent => simp
    | refused a _ ha _ => simp [ha.kind]
    | bare a f _ _ _ _ ha _ _ _ hf => simp [ha.kind, hf.kind]
    | unsendable _ _ _ _ _ _ hx => cases hx
    | full _ _ _ _ _ _ _ hx => cases hx

theorem syncLog_kinds {w : World σ α} {v n : Int} {id : Str} {S : List (Sent σ)} (h : SyncLog w v n id S) :
    ∀ e ∈ S, e.kind ≠ .job := by
  cases h with
  | unsent => simp
  | request a _ ha => simp [ha.kind]
  | full a f _ _ _ ha _ _ _ hf => simp [ha.kind, hf.kind]

theorem send_cases (w : World σ α) (j : Job) (s : Dialog.St σ α) :
    ∃ log, (sendMessage w j s).2.sent = s.sent ++ log ∧ SendResult w j log (sendMessage w j s).1 := by
  unfold sendMessage Dialog.init
  rw [M.bind_assoc]
  by_cases h : (ensureClientSystemId w s).1 = .ok ()
  · rw [M.bind_of_ok h]
    have key : ∃ S, (ensureClientSystemId w s).2.sent = s.sent ++ S ∧ ∀ e ∈ S, e.kind ≠ .job := by
      rw [ensure_state]
      split
      · obtain ⟨S, h1, h2, _⟩ := sync_log w s
        exact ⟨S, h1, syncLog_kinds h2⟩
      · exact ⟨[], by simp, by simp⟩
    obtain ⟨S, hS, hk⟩ := key
    obtain ⟨D, hD, hr⟩ := opened_send_cases w j (ensureClientSystemId w s).2
    refine ⟨S ++ D, by rw [hD, hS, List.append_assoc], ?_⟩
    rcases hr with ⟨h1, h2⟩ | ⟨pre, g, f, v, n, id, rfl, h1, h2, h3, h4⟩
    · refine .inl ⟨?_, h2⟩
      intro e he
      rcases List.mem_append.1 he with he | he
      · exact hk e he
      · exact h1 e he
    · refine .inr ⟨S ++ pre, g, f, v, n, id, by simp, ?_, h2, h3, h4⟩
      intro e he
      rcases List.mem_append.1 he with he | he
      · exact hk e he
      · exact h1 e he
  · obtain ⟨k1, k2, _⟩ := M.bind_notOk (m := ensureClientSystemId w) (s := s)
      (f := fun _ => (open_ w).bind fun _ => M.deferred (job w j) (end_ w)) (fun b hb => h hb)
    have key : ∃ S, (ensureClientSystemId w s).2.sent = s.sent ++ S ∧ ∀ e ∈ S, e.kind ≠ .job := by
      rw [ensure_state]
      split
      · obtain ⟨S, h1, h2, _⟩ := sync_log w s
        exact ⟨S, h1, syncLog_kinds h2⟩
      · exact ⟨[], by simp, by simp⟩
    obtain ⟨S, hS, hk⟩ := key
    exact ⟨S, by rw [k1, hS], .inl ⟨hk, k2⟩⟩

theorem init_log (u : Setup σ α β γ δ) (s : CSt σ α) :
    ∃ S, (init u s).2.st.sent = s.st.sent ++ S ∧ ∀ e ∈ S, e.kind ≠ .job := by
  unfold init
  split
  · obtain ⟨S, h1, h2, _⟩ := sync_log u.world s.st
    exact ⟨S, h1, syncLog_kinds h2⟩
  · exact ⟨[], by simp, by simp⟩

/-! ## Collecting -/

theorem collect_ok {ε : Type} (f : Decoded σ → Outcome ε) : ∀ (xs : List (Decoded σ)) (ys : List ε),
    collect f xs = .ok ys ↔ List.Forall₂ (fun x y => f x = .ok y) xs ys
  | [], ys => by simp [collect, eq_comm]
  | x :: xs, ys => by
    unfold collect
    rw [Dialog.bind_eq_ok]
    simp only [map_eq_ok, collect_ok f xs]
    constructor
    · rintro ⟨y, h1, ys, h2, rfl⟩
      exact .cons h1 h2
    · intro h
      cases h with
      | cons h1 h2 => exact ⟨_, h1, _, h2, rfl⟩

/-! ## Continuing -/

/-- The first acknowledgement 3040 has these parameters. -/
def Marked (m : Decrypted σ) (params : List Str) : Prop :=
  ∃ before a after, m.acknowledgements = before ++ a :: after ∧ (∀ b ∈ before, b.code ≠ 3040) ∧ a.code = 3040 ∧
    a.params = params

theorem continuation_cases (m : Decrypted σ) :
    ((∀ a ∈ m.acknowledgements, a.code ≠ 3040) ∧ continuation m = .ok []) ∨
    (Marked m [] ∧ continuation m = .panic) ∨
    (∃ p ps, Marked m (p :: ps) ∧ continuation m = .ok p) := by
  unfold continuation
  cases h : m.acknowledgements.find? fun a => a.code == 3040 with
  | none =>
    rw [List.find?_eq_none] at h
    exact .inl ⟨by simpa using h, rfl⟩
  | some a =>
    rw [List.find?_eq_some_iff_append] at h
    obtain ⟨h1, bs, cs, h2, h3⟩ := h
    have hm : Marked m a.params := ⟨bs, a, cs, h2, by simpa using h3, by simpa using h1, rfl⟩
    cases hp : a.params with
    | nil => rw [hp] at hm; exact .inr (.inl ⟨hm, by simp [hp]⟩)
    | cons p ps => rw [hp] at hm; exact .inr (.inr ⟨p, ps, hm, by simp [hp]⟩)

theorem Marked.unique {m : Decrypted σ} {p q : List Str} (hp : Marked m p) (hq : Marked m q) : p = q := by
  obtain ⟨b1, a1, c1, h1, h2, h3, h4⟩ := hp
  obtain ⟨b2, a2, c2, k1, k2, k3, k4⟩ := hq
  have f1 : m.acknowledgements.find? (fun a => a.code == 3040) = some a1 := by
    rw [List.find?_eq_some_iff_append]
    exact ⟨by simpa using h3, b1, c1, h1, by simpa using h2⟩
  have f2 : m.acknowledgements.find? (fun a => a.code == 3040) = some a2 := by
    rw [List.find?_eq_some_iff_append]
    exact ⟨by simpa using k3, b2, c2, k1, by simpa using k2⟩
  rw [f1] at f2
  cases f2
  rw [← h4, k4]

theorem not_marked {m : Decrypted σ} {p : List Str} (hp : Marked m p) : ¬ ∀ a ∈ m.acknowledgements, a.code ≠ 3040 := by
  obtain ⟨b1, a1, c1, h1, h2, h3, h4⟩ := hp
  intro h
  exact h a1 (by rw [h1]; simp) h3

end Verif.Client

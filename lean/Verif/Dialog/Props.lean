import Verif.Dialog.Sample

/-
C24–C31 and C76: what the dialog sends, what it returns, and what it remembers, for every
bank, transport, clock and history of calls.
-/

namespace Verif.Dialog

open GoLib Element Element.Spec Segment Message Domain Transport

variable {σ α : Type}

/-! ## Specification -/

/-- The number in the header of a sent message. -/
def number (e : Sent σ) : Int := e.wire.header.number

/-- The dialog ID in the header of a sent message. -/
def dialogOf (e : Sent σ) : Str := e.wire.header.dialogId

/-- Some segment of the job cannot be marshalled. -/
def Unsendable (j : Job) : Prop := ∃ x, some x ∈ j.segments ∧ ∀ b, x.marshal ≠ .ok b

theorem unsendable_iff (j : Job) : Unsendable j ↔ ∃ x, some x ∈ j.segments ∧ ¬ Writable x := by
  unfold Unsendable
  simp only [← seg_ok_iff, not_exists]

/-- The job of a call. -/
def Call.job : Call → Option Job
  | .send j => some j
  | .sendAnonymous j => some j
  | _ => none

/-- What becomes of the answer to the initialisation. -/
def Call.accepts (w : World σ α) : Call → Decrypted σ → Outcome Unit
  | .sendAnonymous _ => anonymousAcceptable w
  | _ => acceptable w

/-- One call: a synchronisation, if any, followed by a dialog, if any. -/
theorem call_log (w : World σ α) (c : Call) (s : St σ α) :
    ∃ S D, (run w c s).2.sent = s.sent ++ (S ++ D) ∧ SyncLog w s.d.version.number s.d.messageCount s.d.dialogId S ∧
      DialogLog w (c.accepts w) s.d.version.number c.job D := by
  cases c with
  | send j => obtain ⟨S, D, h1, h2, h3, _⟩ := send_log w j s; exact ⟨S, D, h1, h2, h3⟩
  | sendAnonymous j => obtain ⟨D, h1, h2, _⟩ := anonymous_log w j s; exact ⟨[], D, h1, .unsent, h2⟩
  | sync => obtain ⟨S, h1, h2, _⟩ := sync_log w s; exact ⟨S, [], by rw [List.append_nil]; exact h1, h2, .unsent⟩
  | syncUser => obtain ⟨S, D, h1, h2, h3, _⟩ := user_log w s; exact ⟨S, D, h1, h2, h3⟩
  | setPin p => exact ⟨[], [], by simp [run, void, setPin, M.modify], .unsent, .unsent⟩

/-- What holds for every call holds for every call of a history. -/
theorem history_log {w : World σ α} {P : Call → List (Sent σ) → Prop}
    (h : ∀ c s, ∃ b, (run w c s).2.sent = s.sent ++ b ∧ P c b) (cs : List Call) : ∀ s : St σ α,
    ∃ bs : List (List (Sent σ)), (runAll w cs s).sent = s.sent ++ bs.flatten ∧ List.Forall₂ P cs bs := by
  induction cs with
  | nil => intro s; exact ⟨[], by simp [runAll], .nil⟩
  | cons c cs ih =>
    intro s
    obtain ⟨b, h1, h2⟩ := h c s
    obtain ⟨bs, h3, h4⟩ := ih (run w c s).2
    exact ⟨b :: bs, by rw [runAll, h3, h1]; simp, .cons h2 h4⟩

/-! ## C24: numbers -/

/-- The messages sent by a call are numbered: those of its synchronisation consecutively,
those of its dialog 1, 2, 3; a job that cannot be marshalled leaves a gap. -/
def Numbered (c : Call) (b : List (Sent σ)) : Prop :=
  ∃ (S D : List (Sent σ)) (n : Int), b = S ++ D ∧
    (S.map Sent.kind <+: [.sync, .end_] ∧ S.map number <+: [n + 1, n + 2]) ∧
    ((D.map number <+: [1, 2, 3] ∧ (D.map Sent.kind <+: [.init, .job, .end_] ∨ D.map Sent.kind = [.init, .end_])) ∨
      (D.map number = [1, 3] ∧ D.map Sent.kind = [.init, .end_] ∧ ∃ j ∈ c.job, Unsendable j)) ∧
    ∀ e ∈ b, e.wire.end_.number = number e ∧ ∃ m, e.wire.marshal = .ok (e.bytes, m)

theorem logged_number {w : World σ α} {e : Sent σ} {k : Kind} {v n : Int} {id : Str} {segs : List (Option Seg)}
    (h : Logged w e k v n id segs) : number e = n ∧ e.wire.end_.number = number e ∧ dialogOf e = id ∧
      ∃ m, e.wire.marshal = .ok (e.bytes, m) := by
  have : number e = n := by unfold number; rw [h.header]; rfl
  refine ⟨this, by rw [h.end_, this], ?_, h.marshalled⟩
  unfold dialogOf; rw [h.header]; rfl

theorem numbered_of_log {w : World σ α} {acc : Decrypted σ → Outcome Unit} {v n : Int} {id : Str} {c : Call}
    {S D : List (Sent σ)} (hS : SyncLog w v n id S) (hD : DialogLog w acc v c.job D) : Numbered c (S ++ D) := by
  refine ⟨S, D, n, rfl, ?_, ?_, ?_⟩
  · cases hS with
    | unsent => exact ⟨by simp, by simp⟩
    | request e segs he => simp [he.kind, (logged_number he).1]
    | full e f segs m i he h1 h2 h3 hf => simp [he.kind, hf.kind, (logged_number he).1, (logged_number hf).1]
  · cases hD with
    | unsent => left; simp
    | refused e segs he _ => left; simp [he.kind, (logged_number he).1]
    | bare e f segs m i _ he _ _ _ hf =>
      left; simp [he.kind, hf.kind, (logged_number he).1, (logged_number hf).1]
    | unsendable e f segs m i k hk hx he _ _ _ hf =>
      right
      refine ⟨by simp [(logged_number he).1, (logged_number hf).1], by simp [he.kind, hf.kind], k, ?_, ?_⟩
      · rw [hk]; simp
      · exact (unsendable_iff k).2 hx
    | full e g f segs m i k _ _ he _ _ _ hg hf =>
      left; simp [he.kind, hf.kind, hg.kind, (logged_number he).1, (logged_number hf).1, (logged_number hg).1]
  · intro e he
    rcases List.mem_append.1 he with he | he
    · cases hS with
      | unsent => simp at he
      | request a segs ha =>
        simp only [List.mem_cons, List.not_mem_nil, or_false] at he
        subst he; exact (logged_number ha).2.imp_right And.right
      | full a f segs m i ha h1 h2 h3 hf =>
        simp only [List.mem_cons, List.not_mem_nil, or_false] at he
        rcases he with rfl | rfl
        · exact (logged_number ha).2.imp_right And.right
        · exact (logged_number hf).2.imp_right And.right
    · cases hD with
      | unsent => simp at he
      | refused a segs ha _ =>
        simp only [List.mem_cons, List.not_mem_nil, or_false] at he
        subst he; exact (logged_number ha).2.imp_right And.right
      | bare a f segs m i _ ha _ _ _ hf =>
        simp only [List.mem_cons, List.not_mem_nil, or_false] at he
        rcases he with rfl | rfl
        · exact (logged_number ha).2.imp_right And.right
        · exact (logged_number hf).2.imp_right And.right
      | unsendable a f segs m i k hk hx ha _ _ _ hf =>
        simp only [List.mem_cons, List.not_mem_nil, or_false] at he
        rcases he with rfl | rfl
        · exact (logged_number ha).2.imp_right And.right
        · exact (logged_number hf).2.imp_right And.right
      | full a g f segs m i k _ _ ha _ _ _ hg hf =>
        simp only [List.mem_cons, List.not_mem_nil, or_false] at he
        rcases he with rfl | rfl | rfl
        · exact (logged_number ha).2.imp_right And.right
        · exact (logged_number hg).2.imp_right And.right
        · exact (logged_number hf).2.imp_right And.right

/-- C24: over every history of calls, with any bank, transport and failures, the messages
sent are, call by call, numbered. -/
theorem C24_numbers (w : World σ α) (cs : List Call) (s : St σ α) :
    ∃ bs : List (List (Sent σ)), (runAll w cs s).sent = s.sent ++ bs.flatten ∧ List.Forall₂ Numbered cs bs := by
  refine history_log (fun c s => ?_) cs s
  obtain ⟨S, D, h1, h2, h3⟩ := call_log w c s
  exact ⟨S ++ D, h1, numbered_of_log h2 h3⟩

example : Sample.trace (runAll (Sample.world Sample.good) [.send Sample.work, .sync, .sendAnonymous Sample.work]
      (Sample.known Sample.good)) =
    [(.init, 1, c!"0"), (.job, 2, c!"dia1"), (.end_, 3, c!"dia1"), (.sync, 4, c!"dia1"), (.end_, 5, c!"dia4"),
     (.init, 1, c!"0"), (.job, 2, c!"dia6"), (.end_, 3, c!"dia6")] := Sample.trace_twice

/-- C24: with an ID assigned, a job that can be marshalled is numbered without gap, and with
one that cannot be, the dialog end has number 3 though only one message went before. -/
theorem C24_gap (w : World σ α) (j : Job) (s : St σ α) (hid : s.d.clientSystemId ≠ c!"0") :
    ∃ D, (sendMessage w j s).2.sent = s.sent ++ D ∧ (¬ Unsendable j → D.map number <+: [1, 2, 3] ∧ D.length ≠ 2) ∧
      (Unsendable j → D.map number <+: [1, 3]) := by
  obtain ⟨S, D, h1, _, h3, h4⟩ := send_log w j s
  rw [h4 hid] at h1
  refine ⟨D, by simpa using h1, ?_, ?_⟩
  · intro hj
    rw [unsendable_iff] at hj
    cases h3 with
    | unsent => simp
    | refused e segs he _ => simp [(logged_number he).1]
    | bare e f segs m i hx => simp at hx
    | unsendable e f segs m i k hk hx =>
      simp only [Option.some.injEq] at hk
      subst hk
      exact absurd hx hj
    | full e g f segs m i k _ _ he _ _ _ hg hf =>
      simp [(logged_number he).1, (logged_number hf).1, (logged_number hg).1]
  · intro hj
    rw [unsendable_iff] at hj
    cases h3 with
    | unsent => simp
    | refused e segs he _ => simp [(logged_number he).1]
    | bare e f segs m i hx => simp at hx
    | unsendable e f segs m i k hk hx he _ _ _ hf => simp [(logged_number he).1, (logged_number hf).1]
    | full e g f segs m i k hk hx =>
      simp only [Option.some.injEq] at hk
      subst hk
      obtain ⟨x, h5, h6⟩ := hj
      exact absurd (hx x h5) h6

example : Sample.trace (sendMessage (Sample.world Sample.good) Sample.foreign (Sample.known Sample.good)).2 =
    [(.init, 1, c!"0"), (.end_, 3, c!"dia1")] := Sample.trace_foreign

/-! ## C25: dialog IDs -/

/-- The first message is for dialog "0" (for a synchronisation: for `first`), the others are
for the dialog in the answer to the first. -/
def Addressed (first : Str → Prop) (D : List (Sent σ)) : Prop :=
  ∀ e rest, D = e :: rest → first (dialogOf e) ∧
    ∀ f ∈ rest, ∃ m, e.reply = .ok m ∧ m.header.dialogId = some (dialogOf f)

/-- C25: over every history, the messages of each call are those of a synchronisation and
those of a dialog.  The dialog's initialisation carries "0"; everything after it carries
the ID of the answer to this very initialisation.  The same holds for the end of the
synchronisation. -/
theorem C25_dialog_id (w : World σ α) (cs : List Call) (s : St σ α) :
    ∃ bs : List (List (Sent σ)), (runAll w cs s).sent = s.sent ++ bs.flatten ∧
      List.Forall₂ (fun _ b => ∃ S D, b = S ++ D ∧ Addressed (fun _ => True) S ∧ Addressed (fun i => i = c!"0") D ∧
        (∀ e ∈ S, e.kind = .sync ∨ e.kind = .end_) ∧ (∀ e ∈ D, e.kind ≠ .sync) ∧
        ∀ e ∈ D, e.kind = .init ↔ dialogOf e = c!"0" ∧ D.head? = some e) cs bs := by
  refine history_log (fun c s => ?_) cs s
  obtain ⟨S, D, h1, h2, h3⟩ := call_log w c s
  refine ⟨S ++ D, h1, S, D, rfl, ?_, ?_, ?_, ?_, ?_⟩
  · intro e rest he
    refine ⟨trivial, ?_⟩
    cases h2 with
    | unsent => cases he
    | request a segs ha => cases he; simp
    | full a f segs m i ha h4 h5 h6 hf =>
      cases he
      simp only [List.mem_cons, List.not_mem_nil, or_false, forall_eq]
      exact ⟨m, h4, by rw [h6, (logged_number hf).2.2.1]⟩
  · intro e rest he
    cases h3 with
    | unsent => cases he
    | refused a segs ha _ => cases he; exact ⟨(logged_number ha).2.2.1, by simp⟩
    | bare a f segs m i _ ha h4 _ h6 hf =>
      cases he
      simp only [List.mem_cons, List.not_mem_nil, or_false, forall_eq]
      exact ⟨(logged_number ha).2.2.1, m, h4, by rw [h6, (logged_number hf).2.2.1]⟩
    | unsendable a f segs m i k hk hx ha h4 _ h6 hf =>
      cases he
      simp only [List.mem_cons, List.not_mem_nil, or_false, forall_eq]
      exact ⟨(logged_number ha).2.2.1, m, h4, by rw [h6, (logged_number hf).2.2.1]⟩
    | full a g f segs m i k _ _ ha h4 _ h6 hg hf =>
      cases he
      simp only [List.mem_cons, List.not_mem_nil, or_false, forall_eq_or_imp, forall_eq]
      exact ⟨(logged_number ha).2.2.1, ⟨m, h4, by rw [h6, (logged_number hg).2.2.1]⟩,
        m, h4, by rw [h6, (logged_number hf).2.2.1]⟩
  · cases h2 with
    | unsent => simp
    | request a segs ha => simp [ha.kind]
    | full a f segs m i ha h4 h5 h6 hf => simp [ha.kind, hf.kind]
  · cases h3 with
    | unsent => simp
    | refused a segs ha _ => simp [ha.kind]
    | bare a f segs m i _ ha h4 _ h6 hf => simp [ha.kind, hf.kind]
    | unsendable a f segs m i k hk hx ha h4 _ h6 hf => simp [ha.kind, hf.kind]
    | full a g f segs m i k _ _ ha h4 _ h6 hg hf => simp [ha.kind, hf.kind, hg.kind]
  · have ne : ∀ {a f : Sent σ} {x y : Kind}, a.kind = x → f.kind = y → x ≠ y → a ≠ f := by
      intro a f x y h1 h2 h3 h4
      exact h3 (by rw [← h1, ← h2, h4])
    cases h3 with
    | unsent => simp
    | refused a segs ha _ => simp [ha.kind, (logged_number ha).2.2.1]
    | bare a f segs m i _ ha h4 _ h6 hf =>
      simp [ha.kind, hf.kind, (logged_number ha).2.2.1, ne ha.kind hf.kind (by decide)]
    | unsendable a f segs m i k hk hx ha h4 _ h6 hf =>
      simp [ha.kind, hf.kind, (logged_number ha).2.2.1, ne ha.kind hf.kind (by decide)]
    | full a g f segs m i k _ _ ha h4 _ h6 hg hf =>
      simp [ha.kind, hf.kind, hg.kind, (logged_number ha).2.2.1, ne ha.kind hf.kind (by decide),
        ne ha.kind hg.kind (by decide)]

example : Sample.trace (sendMessage (Sample.world Sample.good) Sample.work (Sample.fresh Sample.good)).2 =
    [(.sync, 1, c!"0"), (.end_, 2, c!"dia1"), (.init, 1, c!"0"), (.job, 2, c!"dia3"), (.end_, 3, c!"dia3")] :=
  Sample.trace_good

/-! ## C26: closing -/

/-- What an answer to an initialisation needs to be understood, spelled out. -/
structure Understands (w : World σ α) (m : Decrypted σ) : Prop where
  dialogId : m.header.dialogId ≠ none
  bank : ∀ b, find m c!"HIBPA" = some b → (∃ ss, m.supportedSegments = .ok ss) ∧
    (∃ p, viewOf w.views.bankParameters b = .ok p) ∧
    ∀ q, find m c!"HIPINS" = some q → ∃ ts, viewOf w.views.pinTan q = .ok ts
  user : ∀ u, find m c!"HIUPA" = some u → ∃ p, viewOf w.views.userParameters u = .ok p
  accounts : ∀ x ∈ m.segments c!"HIUPD", ∃ a, viewOf w.views.account x = .ok a
  announcement : ∀ x, find m c!"HIKIM" = some x → viewOf w.views.announcement x = .ok ()
  security : find m c!"HITANS" ≠ none → securityAck m ≠ none → ∃ f fs, supportedFunctions w m = .ok (f :: fs)

/-- What it needs to be accepted: in addition, no error acknowledgement. -/
structure Accepts (w : World σ α) (m : Decrypted σ) : Prop extends Understands w m where
  acknowledgements : ∀ a ∈ m.acknowledgements, a.code < 9000

theorem bind_eq_ok {β γ : Type} (o : Outcome β) (f : β → Outcome γ) (r : γ) :
    o.bind f = .ok r ↔ ∃ b, o = .ok b ∧ f b = .ok r :=
  ⟨bind_ok, fun ⟨b, h1, h2⟩ => by rw [h1]; exact h2⟩

theorem map_eq_ok {β γ : Type} (o : Outcome β) (f : β → γ) (r : γ) :
    o.map' f = .ok r ↔ ∃ b, o = .ok b ∧ f b = r :=
  ⟨map_ok, fun ⟨b, h1, h2⟩ => by rw [h1]; simp [Outcome.map', h2]⟩

theorem dialogIdOf_iff (m : Decrypted σ) : dialogIdOf m = .ok () ↔ m.header.dialogId ≠ none := by
  unfold dialogIdOf
  cases m.header.dialogId <;> simp

theorem checkAcks_iff (m : Decrypted σ) : checkAcks m = .ok () ↔ ∀ a ∈ m.acknowledgements, a.code < 9000 := by
  unfold checkAcks
  by_cases h : m.acknowledgements.any (·.isError) = true
  · rw [if_pos h]
    simp only [List.any_eq_true, Acknowledgement.isError, decide_eq_true_eq] at h
    simp only [reduceCtorEq, false_iff]
    obtain ⟨a, h1, h2⟩ := h
    intro hx
    have := hx a h1
    omega
  · rw [if_neg h]
    simp only [List.any_eq_true, Acknowledgement.isError, decide_eq_true_eq, not_exists, not_and] at h
    simp only [true_iff]
    intro a ha
    have := h a ha
    omega

theorem bankReadable_iff (w : World σ α) (m : Decrypted σ) : bankReadable w m = .ok () ↔
    ∀ b, find m c!"HIBPA" = some b → (∃ ss, m.supportedSegments = .ok ss) ∧
    (∃ p, viewOf w.views.bankParameters b = .ok p) ∧
    ∀ q, find m c!"HIPINS" = some q → ∃ ts, viewOf w.views.pinTan q = .ok ts := by
  unfold bankReadable
  cases find m c!"HIBPA" with
  | none => simp
  | some b =>
    cases find m c!"HIPINS" with
    | none => simp [-Outcome.bind, bind_eq_ok]
    | some q => simp [-Outcome.bind, -Outcome.map', bind_eq_ok, map_eq_ok]

theorem userReadable_iff (w : World σ α) (m : Decrypted σ) : userReadable w m = .ok () ↔
    ∀ u, find m c!"HIUPA" = some u → ∃ p, viewOf w.views.userParameters u = .ok p := by
  unfold userReadable
  cases find m c!"HIUPA" with
  | none => simp
  | some u => simp [-Outcome.map', map_eq_ok]

theorem accountsReadable_iff (w : World σ α) (xs : List (Decoded σ)) : accountsReadable w xs = .ok () ↔
    ∀ x ∈ xs, ∃ a, viewOf w.views.account x = .ok a := by
  induction xs with
  | nil => simp [accountsReadable]
  | cons x xs ih => simp [-Outcome.bind, accountsReadable, bind_eq_ok, ih]

theorem announcement_iff (w : World σ α) (m : Decrypted σ) : announcement w m = .ok () ↔
    ∀ x, find m c!"HIKIM" = some x → viewOf w.views.announcement x = .ok () := by
  unfold announcement
  cases find m c!"HIKIM" <;> simp

theorem negotiable_iff (w : World σ α) (m : Decrypted σ) : negotiable w m = .ok () ↔
    (find m c!"HITANS" ≠ none → securityAck m ≠ none → ∃ f fs, supportedFunctions w m = .ok (f :: fs)) := by
  unfold negotiable
  cases find m c!"HITANS" with
  | none => simp
  | some x =>
    cases securityAck m with
    | none => simp
    | some a =>
      simp only [Option.isNone_some, Bool.or_self, Bool.false_eq_true, if_false, ne_eq, reduceCtorEq,
        not_false_eq_true, forall_const, bind_eq_ok]
      constructor
      · rintro ⟨fs, h1, h2⟩
        cases fs with
        | nil => simp at h2
        | cons f fs => exact ⟨f, fs, h1⟩
      · rintro ⟨f, fs, h⟩
        exact ⟨f :: fs, h, by simp⟩

theorem acceptable_iff (w : World σ α) (m : Decrypted σ) : acceptable w m = .ok () ↔ Accepts w m := by
  unfold acceptable parametersReadable
  simp only [bind_eq_ok]
  constructor
  · rintro ⟨_, h1, _, ⟨_, h2, _, h3, h4⟩, _, h5, _, h6, h7⟩
    exact ⟨⟨(dialogIdOf_iff m).1 h1, (bankReadable_iff w m).1 h2, (userReadable_iff w m).1 h3,
      (accountsReadable_iff w _).1 h4, (announcement_iff w m).1 h5, (negotiable_iff w m).1 h7⟩, (checkAcks_iff m).1 h6⟩
  · rintro ⟨⟨h1, h2, h3, h4, h5, h7⟩, h6⟩
    exact ⟨(), (dialogIdOf_iff m).2 h1, (), ⟨(), (bankReadable_iff w m).2 h2, (), (userReadable_iff w m).2 h3,
      (accountsReadable_iff w _).2 h4⟩, (), (announcement_iff w m).2 h5, (), (checkAcks_iff m).2 h6,
      (negotiable_iff w m).2 h7⟩

/-- The sent message is a dialog end for dialog `i`: its header says so, and its only segment
is HKEND with this ID. -/
structure Ends (f : Sent σ) (i : Str) : Prop where
  kind : f.kind = .end_
  dialog : dialogOf f = i
  body : bodies (f.plain.content.getD []) = [(c!"HKEND", 1, [some (.identification i 30)])]

theorem ends_of_logged {w : World σ α} {f : Sent σ} {v n : Int} {i : Str}
    (h : Logged w f .end_ v n i (endSegments i)) : Ends f i :=
  ⟨h.kind, (logged_number h).2.2.1, by rw [h.body]; rfl⟩

/-- C26: if the initialisation succeeds, then whatever happens to the job - it may be
impossible to marshal, get lost, be answered with garbage, or be rejected - SendMessage
sends at most the job and then exactly one dialog end, for the dialog the bank opened. -/
theorem C26_closed (w : World σ α) (j : Job) (s : St σ α) (h : (init w s).1 = .ok ()) :
    ∃ e m i J f, (init w s).2.sent.getLast? = some e ∧ e.kind = .init ∧ e.reply = .ok m ∧ m.header.dialogId = some i ∧
      (sendMessage w j s).2.sent = (init w s).2.sent ++ (J ++ [f]) ∧ (∀ g ∈ J, g.kind = .job) ∧ Ends f i ∧
      (¬ Unsendable j → J.length = 1) ∧ (Unsendable j → J = []) := by
  unfold sendMessage
  rw [M.bind_of_ok h]
  have hi : init w s = open_ w (ensureClientSystemId w s).2 := by
    unfold init at h ⊢
    obtain ⟨_, _, h2⟩ := M.bind_ok h
    exact h2
  rw [hi] at h ⊢
  generalize (ensureClientSystemId w s).2 = t at *
  obtain ⟨_, _, h2⟩ := open_log w t
  obtain ⟨hr, _, e, m, h3, h4, h5, h6, h7⟩ := h2 h
  obtain ⟨_, _, f, q1, q2⟩ := close_spec w j (open_ w t).2 hr
  rcases q2 with ⟨q2, q3, _⟩ | ⟨q2, g, q3, q4, _⟩
  · refine ⟨e, m, _, [], f, by rw [h3]; simp, h4.kind, h5, h7, q3, by simp, ends_of_logged q1, ?_, fun _ => rfl⟩
    intro hn
    exact absurd ((unsendable_iff j).2 q2) hn
  · refine ⟨e, m, _, [g], f, by rw [h3]; simp, h4.kind, h5, h7, by simpa using q4, by simp [q3.kind],
      ends_of_logged q1, fun _ => rfl, ?_⟩
    intro hn
    obtain ⟨x, hx, hw⟩ := (unsendable_iff j).1 hn
    exact absurd (q2 x hx) hw

example : Sample.verdict (init (Sample.world Sample.good) (Sample.known Sample.good)) = .ok () ∧
    Sample.verdict (sendMessage (Sample.world fun n => if n = 2 then .err else Sample.good n) Sample.work
      (Sample.known Sample.good)) = .err ∧
    Sample.trace (sendMessage (Sample.world fun n => if n = 2 then .err else Sample.good n) Sample.work
        (Sample.known Sample.good)).2 =
      [(.init, 1, c!"0"), (.job, 2, c!"dia1"), (.end_, 3, c!"dia1")] :=
  Sample.job_lost

/-- C26: the dialog of a call is closed exactly if the answer to its initialisation is
accepted.  In particular the dialog the bank opened with an answer carrying an error
acknowledgement stays open. -/
theorem C26_exactly (w : World σ α) (cs : List Call) (s : St σ α) :
    ∃ bs : List (List (Sent σ)), (runAll w cs s).sent = s.sent ++ bs.flatten ∧
      List.Forall₂ (fun c b => ∀ j, c = .send j → ∃ S D, b = S ++ D ∧ (∀ e ∈ S, e.kind ≠ .init ∧ e.kind ≠ .job) ∧
        ∀ e m, e ∈ D → e.kind = .init → e.reply = .ok m →
          (Accepts w m → ∃ i f, m.header.dialogId = some i ∧ Ends f i ∧ D.getLast? = some f) ∧
          (¬ Accepts w m → D = [e])) cs bs := by
  refine history_log (fun c s => ?_) cs s
  obtain ⟨S, D, h1, h2, h3⟩ := call_log w c s
  refine ⟨S ++ D, h1, fun j hj => ⟨S, D, rfl, ?_, ?_⟩⟩
  · cases h2 with
    | unsent => simp
    | request a segs ha => simp [ha.kind]
    | full a f segs m i ha h4 h5 h6 hf => simp [ha.kind, hf.kind]
  · subst hj
    intro e m he hk hm
    have inj : ∀ {m' : Decrypted σ}, e.reply = .ok m' → m' = m := by
      intro m' h
      rw [hm] at h
      exact (Outcome.ok.inj h).symm
    cases h3 with
    | unsent => simp at he
    | refused a segs ha hr =>
      simp only [List.mem_cons, List.not_mem_nil, or_false] at he
      subst he
      exact ⟨fun hacc => absurd ((acceptable_iff w m).2 hacc) (hr m hm), fun _ => rfl⟩
    | bare a f segs m' i hx => cases hx
    | unsendable a f segs m' i k _ hx ha h4 h5 h6 hf =>
      simp only [List.mem_cons, List.not_mem_nil, or_false] at he
      rcases he with rfl | rfl
      · rw [inj h4] at h5 h6
        exact ⟨fun _ => ⟨i, f, h6, ends_of_logged hf, by simp⟩, fun hn => absurd ((acceptable_iff w m).1 h5) hn⟩
      · rw [hf.kind] at hk; cases hk
    | full a g f segs m' i k _ _ ha h4 h5 h6 hg hf =>
      simp only [List.mem_cons, List.not_mem_nil, or_false] at he
      rcases he with rfl | rfl | rfl
      · rw [inj h4] at h5 h6
        exact ⟨fun _ => ⟨i, f, h6, ends_of_logged hf, by simp⟩, fun hn => absurd ((acceptable_iff w m).1 h5) hn⟩
      · rw [hg.kind] at hk; cases hk
      · rw [hf.kind] at hk; cases hk

example : Sample.trace (sendMessage (Sample.world Sample.bad) Sample.work (Sample.known Sample.bad)).2 =
    [(.init, 1, c!"0")] := Sample.trace_bad

/-! ## C27: errors -/

theorem send_known (w : World σ α) (j : Job) (s : St σ α) (hid : s.d.clientSystemId ≠ c!"0") :
    sendMessage w j s = ((open_ w).bind fun _ => M.deferred (job w j) (end_ w)) s := by
  unfold sendMessage init
  rw [M.bind_assoc]
  have h1 := ensure_state w s
  have h2 := ensure_result w s
  rw [if_neg hid] at h1 h2
  rw [M.bind_of_ok h2, h1]

theorem acked_panic (o : Outcome (Decrypted σ)) : acked o ≠ .panic ↔ o ≠ .panic := by
  unfold acked
  cases o with
  | ok m => simp only [Outcome.bind, checkAcks]; split <;> simp
  | err => simp [Outcome.bind]
  | panic => simp [Outcome.bind]

/-- C27: with an ID assigned, SendMessage succeeds exactly if three messages were sent, the
answer to the first was accepted, the answer to the second is readable and has no error
acknowledgement, and reading the answer to the third did not panic.  It returns the answer
to the second. -/
theorem C27_success (w : World σ α) (j : Job) (s : St σ α) (hid : s.d.clientSystemId ≠ c!"0") (r : Decrypted σ) :
    (sendMessage w j s).1 = .ok r ↔ ∃ e g f m, (sendMessage w j s).2.sent = s.sent ++ [e, g, f] ∧
      e.reply = .ok m ∧ Accepts w m ∧ g.reply = .ok r ∧ (∀ a ∈ r.acknowledgements, a.code < 9000) ∧ f.reply ≠ .panic := by
  rw [send_known w j s hid]
  obtain ⟨_, h1, h2⟩ := open_log w s
  by_cases h : (open_ w s).1 = .ok ()
  · rw [M.bind_of_ok h]
    obtain ⟨hr, _, e, m, h3, h4, h5, h6, h7⟩ := h2 h
    obtain ⟨_, _, f, q1, q2⟩ := close_spec w j (open_ w s).2 hr
    rcases q2 with ⟨q2, q3, q4⟩ | ⟨q2, g, q3, q4, q5, q6⟩
    · constructor
      · intro hx; exact absurd hx (q4 r)
      · rintro ⟨e', g', f', m', hx, _⟩
        rw [q3, h3] at hx
        have := congrArg List.length hx
        simp at this
    · rw [h3] at q4
      have hq : (s.sent ++ [e] ++ [g, f]) = s.sent ++ [e, g, f] := by simp
      rw [hq] at q4
      have hres : ((M.deferred (job w j) (end_ w)) (open_ w s).2).1 = .ok r ↔
          f.reply ≠ .panic ∧ g.reply = .ok r ∧ ∀ a ∈ r.acknowledgements, a.code < 9000 := by
        by_cases hf : f.reply = .panic
        · have : acked f.reply = .panic := by rw [hf]; rfl
          rw [q5 this]
          simp [hf]
        · rw [q6 ((acked_panic _).2 hf), bind_eq_ok]
          simp only [map_eq_ok, ← checkAcks_iff]
          constructor
          · rintro ⟨b, h8, _, h9, rfl⟩
            exact ⟨hf, h8, h9⟩
          · rintro ⟨_, h8, h9⟩
            exact ⟨r, h8, (), h9, rfl⟩
      rw [hres]
      constructor
      · rintro ⟨h8, h9, h10⟩
        exact ⟨e, g, f, m, q4, h5, (acceptable_iff w m).1 h6, h9, h10, h8⟩
      · rintro ⟨e', g', f', m', hx, _, _, h9, h10, h8⟩
        rw [q4] at hx
        have hx := List.append_cancel_left hx
        simp only [List.cons.injEq, and_true] at hx
        obtain ⟨rfl, rfl, rfl⟩ := hx
        exact ⟨h8, h9, h10⟩
  · obtain ⟨k1, k2, _⟩ := M.bind_notOk (f := fun _ => M.deferred (job w j) (end_ w)) (fun b hb => h hb)
    constructor
    · intro hx; exact absurd hx (k2 r)
    · rintro ⟨e', g', f', m', hx, h8, h9, _⟩
      rw [k1] at hx
      obtain ⟨D, h3, h4⟩ := h1 h
      rw [h3] at hx
      have hx := List.append_cancel_left hx
      subst hx
      cases h4 none with
      | full _ _ _ _ _ _ _ hx => cases hx

/-- C27: suppose the answer `m` to the initialisation is readable as far as parameters and
security functions go.  Then an error acknowledgement in it makes SendMessage return an
error and send nothing more; without one, and if a readable answer `r` to the job arrives,
SendMessage returns an error if `r` has an error acknowledgement and `r` otherwise, whatever
other acknowledgements there are and whatever the dialog end is answered with, as long as
reading that does not panic. -/
theorem C27_errors (w : World σ α) (j : Job) (s : St σ α) (hid : s.d.clientSystemId ≠ c!"0")
    (e : Sent σ) (rest : List (Sent σ)) (m : Decrypted σ) (hsent : (sendMessage w j s).2.sent = s.sent ++ e :: rest)
    (hm : e.reply = .ok m) (hu : Understands w m) :
    ((∃ a ∈ m.acknowledgements, 9000 ≤ a.code) → (sendMessage w j s).1 = .err ∧ rest = []) ∧
    ((∀ a ∈ m.acknowledgements, a.code < 9000) → ∀ g f r, rest = [g, f] → g.reply = .ok r → f.reply ≠ .panic →
      ((∃ a ∈ r.acknowledgements, 9000 ≤ a.code) → (sendMessage w j s).1 = .err) ∧
      ((∀ a ∈ r.acknowledgements, a.code < 9000) → (sendMessage w j s).1 = .ok r)) := by
  have hc : ∀ x : Decrypted σ, (∃ a ∈ x.acknowledgements, 9000 ≤ a.code) → checkAcks x = .err := by
    rintro x ⟨a, h1, h2⟩
    unfold checkAcks
    rw [if_pos]
    simp only [List.any_eq_true, Acknowledgement.isError, decide_eq_true_eq]
    exact ⟨a, h1, h2⟩
  constructor
  · intro herr
    have hacc : acceptable w m = .err := by
      unfold acceptable parametersReadable
      rw [(dialogIdOf_iff m).2 hu.dialogId, (bankReadable_iff w m).2 hu.bank, (userReadable_iff w m).2 hu.user,
        (accountsReadable_iff w _).2 hu.accounts, (announcement_iff w m).2 hu.announcement, hc m herr]
      rfl
    rw [send_known w j s hid] at hsent ⊢
    have h0 := open_spec w s
    rcases h0 with ⟨_, h1, h2, _⟩ | ⟨_, e', he', h1, h2⟩
    · rw [(M.bind_notOk h1).1, h2] at hsent
      have := congrArg List.length hsent
      simp at this
    · by_cases hm' : ∃ m', e'.reply = .ok m'
      · obtain ⟨m', hm'⟩ := hm'
        have ho := h1 m' hm'
        have hl := logs_of_outer (opened_outer w m' (afterInit s e'))
        unfold logs at hl
        simp only [Prod.mk.injEq] at hl
        have hee : e = e' := by
          obtain ⟨_, q1, q2⟩ := open_log w s
          have hpre : s.sent ++ [e'] <+: ((open_ w).bind (fun _ => M.deferred (job w j) (end_ w)) s).2.sent := by
            by_cases hok : (open_ w s).1 = .ok ()
            · rw [M.bind_of_ok hok]
              obtain ⟨hr, _⟩ := q2 hok
              obtain ⟨_, _, f, _, q3⟩ := close_spec w j (open_ w s).2 hr
              have hx : (open_ w s).2.sent = s.sent ++ [e'] := by rw [ho]; exact hl.1
              rcases q3 with ⟨_, q3, _⟩ | ⟨_, g, _, q3, _⟩
              · rw [q3, hx]; exact List.prefix_append _ _
              · rw [q3, hx]; exact List.prefix_append _ _
            · rw [(M.bind_notOk (fun b hb => hok hb)).1, ho, hl.1]
              exact List.prefix_refl _
          rw [hsent, List.prefix_append_right_inj] at hpre
          obtain ⟨z, hz⟩ := hpre
          simp only [List.cons_append, List.cons.injEq] at hz
          exact hz.1.symm
        subst hee
        rw [hm] at hm'
        simp only [Outcome.ok.injEq] at hm'
        subst hm'
        have hres : (open_ w s).1 = .err := by rw [ho, opened_result, hacc]
        have hn : ∀ b, (open_ w s).1 ≠ .ok b := by rw [hres]; simp
        obtain ⟨k1, k2, k3⟩ := M.bind_notOk (f := fun _ => M.deferred (job w j) (end_ w)) hn
        constructor
        · rw [hres] at k3
          revert k2 k3
          cases (((open_ w).bind fun _ => M.deferred (job w j) (end_ w)) s).1 with
          | ok b => intro k2; exact absurd rfl (k2 b)
          | err => intros; rfl
          | panic => intro _ k3; simp at k3
        · rw [k1, ho, hl.1] at hsent
          have hx := List.append_cancel_left (as := s.sent) (show s.sent ++ [e] = s.sent ++ e :: rest from hsent)
          simp only [List.cons.injEq, true_and] at hx
          exact hx.symm
      · push Not at hm'
        obtain ⟨k1, k2, _⟩ := h2 hm'
        rw [(M.bind_notOk k1).1, k2] at hsent
        have hx := List.append_cancel_left (as := s.sent) (show s.sent ++ [e'] = s.sent ++ e :: rest from hsent)
        simp only [List.cons.injEq] at hx
        rw [hx.1] at hm'
        exact absurd hm (hm' m)
  · intro hok g f r hr hg hf
    subst hr
    have hacc : Accepts w m := ⟨hu, hok⟩
    refine ⟨?_, fun h => (C27_success w j s hid r).2 ⟨e, g, f, m, hsent, hm, hacc, hg, h, hf⟩⟩
    intro herr
    rw [send_known w j s hid] at hsent ⊢
    obtain ⟨_, h1, h2⟩ := open_log w s
    by_cases h : (open_ w s).1 = .ok ()
    · rw [M.bind_of_ok h] at hsent ⊢
      obtain ⟨hr, _, e', m', h3, h4, h5, h6, h7⟩ := h2 h
      obtain ⟨_, _, f', q1, q2⟩ := close_spec w j (open_ w s).2 hr
      rcases q2 with ⟨q2, q3, q4⟩ | ⟨q2, g', q3, q4, q5, q6⟩
      · rw [q3, h3] at hsent
        have := congrArg List.length hsent
        simp at this
      · rw [q4, h3] at hsent
        have hx := List.append_cancel_left (as := s.sent)
          (show s.sent ++ [e', g', f'] = s.sent ++ [e, g, f] by simpa using hsent)
        simp only [List.cons.injEq, and_true] at hx
        obtain ⟨rfl, rfl, rfl⟩ := hx
        rw [q6 ((acked_panic _).2 hf), hg]
        simp only [Outcome.bind, hc r herr, Outcome.map']
    · obtain ⟨k1, _, _⟩ := M.bind_notOk (f := fun _ => M.deferred (job w j) (end_ w)) (fun b hb => h hb)
      rw [k1] at hsent
      obtain ⟨D, h3, h4⟩ := h1 h
      rw [h3] at hsent
      have hx := List.append_cancel_left hsent
      subst hx
      cases h4 none with
      | full _ _ _ _ _ _ _ hx => cases hx

example : Sample.verdict (sendMessage (Sample.world Sample.good) Sample.work (Sample.known Sample.good)) = .ok () ∧
    Sample.verdict (sendMessage (Sample.world Sample.bad) Sample.work (Sample.known Sample.bad)) = .err ∧
    Sample.verdict (sendMessage (Sample.world Sample.warning) Sample.work (Sample.known Sample.warning)) = .ok () :=
  Sample.verdicts

/-- C27: the answer to the dialog end is read after everything else, and a panic there is not
caught: SendMessage panics although the job was accepted. -/
theorem C27_end_panics (w : World σ α) (j : Job) (s : St σ α) (hid : s.d.clientSystemId ≠ c!"0") (e g f : Sent σ)
    (hsent : (sendMessage w j s).2.sent = s.sent ++ [e, g, f]) (hf : f.reply = .panic) :
    (sendMessage w j s).1 = .panic := by
  rw [send_known w j s hid] at hsent ⊢
  obtain ⟨_, h1, h2⟩ := open_log w s
  by_cases h : (open_ w s).1 = .ok ()
  · rw [M.bind_of_ok h] at hsent ⊢
    obtain ⟨hr, _, e', m', h3, h4, h5, h6, h7⟩ := h2 h
    obtain ⟨_, _, f', q1, q2⟩ := close_spec w j (open_ w s).2 hr
    rcases q2 with ⟨q2, q3, q4⟩ | ⟨q2, g', q3, q4, q5, q6⟩
    · rw [q3, h3] at hsent
      have := congrArg List.length hsent
      simp at this
    · rw [q4, h3] at hsent
      have hx := List.append_cancel_left (as := s.sent)
        (show s.sent ++ [e', g', f'] = s.sent ++ [e, g, f] by simpa using hsent)
      simp only [List.cons.injEq, and_true] at hx
      obtain ⟨rfl, rfl, rfl⟩ := hx
      exact q5 (by rw [hf]; rfl)
  · obtain ⟨k1, _, _⟩ := M.bind_notOk (f := fun _ => M.deferred (job w j) (end_ w)) (fun b hb => h hb)
    rw [k1] at hsent
    obtain ⟨D, h3, h4⟩ := h1 h
    rw [h3] at hsent
    have hx := List.append_cancel_left hsent
    subst hx
    cases h4 none with
    | full _ _ _ _ _ _ _ hx => cases hx

example : Sample.verdict (sendMessage (Sample.world Sample.noVersion) Sample.work (Sample.known Sample.noVersion)) = .panic ∧
    (Sample.trace (sendMessage (Sample.world Sample.noVersion) Sample.work (Sample.known Sample.noVersion)).2).length = 3 :=
  Sample.end_panics

end Verif.Dialog

import Verif.Dialog.FoldLemmas
import Verif.Dialog.ContentProps

/-
C86: what the dialog keeps about the bank, for every history of calls: the supported segments,
the bank parameters, which transactions need a TAN, and the parameters of the transactions.
-/

namespace Verif.Dialog

open GoLib Element Segment Message Domain Transport

variable {σ α : Type}

/-! ## Specification -/

/-- The last entry for a segment ID counts. -/
def LastEntry (ts : List (Str × Bool)) (id : Str) (tan : Bool) : Prop :=
  ∃ pre post, ts = pre ++ (id, tan) :: post ∧ ∀ x ∈ post, x.1 ≠ id

/-- The version of a decoded segment. -/
def versionOf (w : World σ α) : Decoded σ → Int
  | .ack a => a.header.version
  | .other y => w.views.version y

/-- The answer to a synchronisation hands out a client system ID. -/
structure Assigns (w : World σ α) (m : Decrypted σ) (id : Str) : Prop where
  dialogId : m.header.dialogId ≠ none
  acknowledgements : ∀ a ∈ m.acknowledgements, a.code < 9000
  security : find m c!"HITANS" ≠ none → securityAck m ≠ none → ∃ f fs, supportedFunctions w m = .ok (f :: fs)
  assigned : ∃ x, find m c!"HISYN" = some x ∧ viewOf w.views.clientSystemId x = .ok id

/-- The parameters in the answer to this message are looked at. -/
def Looked (w : World σ α) (e : Sent σ) (m : Decrypted σ) : Prop :=
  e.reply = .ok m ∧ (e.kind = .init ∧ m.header.dialogId ≠ none ∨ e.kind = .sync ∧ ∃ id, Assigns w m id)

/-- The answer says: these segments are supported, these are the bank's parameters, these are the
transactions. -/
structure BankSays (w : World σ α) (m : Decrypted σ) (ss : List (Str × Int)) (p : BankParameters) (ts : List (Str × Bool)) :
    Prop where
  supported : m.supportedSegments = .ok ss
  parameters : ∃ b, find m c!"HIBPA" = some b ∧ viewOf w.views.bankParameters b = .ok p
  transactions : ∃ q, find m c!"HIPINS" = some q ∧ viewOf w.views.pinTan q = .ok ts

/-- The dialog knows what the answer says. -/
structure BankKnown (w : World σ α) (m : Decrypted σ) (ss : List (Str × Int)) (p : BankParameters) (ts : List (Str × Bool))
    (d : Dialog σ α) : Prop where
  supported : d.supportedSegments = ss
  parameters : d.bankParameterData.parameters = p
  transactions : ∃ f, d.bankParameterData.pinTan = some f ∧ ∀ id tan, f id = some tan ↔ LastEntry ts id tan
  segments : List.Forall₂ (fun s x => x.1 = s ∧ ∀ y, x.2 = some y ↔ find m s.1 = some y ∧ versionOf w y = s.2)
    ss d.bankParameterData.segmentParameters

/-! ## Lemmas -/

theorem assigns_iff (w : World σ α) (m : Decrypted σ) (id : Str) :
    ((assignable w m).bind fun _ => assignedId w m) = .ok id ↔ Assigns w m id := by
  rw [bind_eq_ok]
  have h1 : assignable w m = .ok () ↔ m.header.dialogId ≠ none ∧ (∀ a ∈ m.acknowledgements, a.code < 9000) ∧
      (find m c!"HITANS" ≠ none → securityAck m ≠ none → ∃ f fs, supportedFunctions w m = .ok (f :: fs)) := by
    unfold assignable
    simp only [bind_eq_ok]
    rw [← dialogIdOf_iff, ← checkAcks_iff, ← negotiable_iff]
    exact ⟨fun ⟨_, a, _, b, c⟩ => ⟨a, b, c⟩, fun ⟨a, b, c⟩ => ⟨(), a, (), b, c⟩⟩
  have h2 : assignedId w m = .ok id ↔ ∃ x, find m c!"HISYN" = some x ∧ viewOf w.views.clientSystemId x = .ok id := by
    unfold assignedId
    cases find m c!"HISYN" with
    | none => simp
    | some x => simp
  constructor
  · rintro ⟨_, ha, hb⟩
    obtain ⟨a, b, c⟩ := h1.1 ha
    exact ⟨a, b, c, h2.1 hb⟩
  · rintro ⟨a, b, c, d⟩
    exact ⟨(), h1.2 ⟨a, b, c⟩, h2.2 d⟩

theorem pinTanMap_iff (ts : List (Str × Bool)) (id : Str) (tan : Bool) : pinTanMap ts id = some tan ↔ LastEntry ts id tan := by
  unfold pinTanMap LastEntry
  constructor
  · intro h
    simp only [Option.map_eq_some_iff] at h
    obtain ⟨x, hx, rfl⟩ := h
    rw [List.find?_eq_some_iff_append] at hx
    obtain ⟨h1, as, bs, h2, h3⟩ := hx
    simp only [beq_iff_eq] at h1
    refine ⟨bs.reverse, as.reverse, ?_, ?_⟩
    · have := congrArg List.reverse h2
      simp only [List.reverse_reverse, List.reverse_append, List.reverse_cons, List.append_assoc, List.cons_append,
        List.nil_append] at this
      rw [this, ← h1]
    · intro y hy
      have := h3 y (List.mem_reverse.1 hy)
      simpa using this
  · rintro ⟨pre, post, rfl, h⟩
    have : (pre ++ (id, tan) :: post).reverse = post.reverse ++ (id, tan) :: pre.reverse := by simp
    rw [this, List.find?_append]
    have hn : post.reverse.find? (fun t => t.1 == id) = none := by
      rw [List.find?_eq_none]
      intro x hx
      simpa using h x (List.mem_reverse.1 hx)
    rw [hn]
    simp

/-- What reading the parameters makes of bank data and supported segments. -/
def bankUpdate (w : World σ α) (m : Decrypted σ) (k : BankParameterData σ × List (Str × Int)) :
    BankParameterData σ × List (Str × Int) :=
  match find m c!"HIBPA" with
  | none => k
  | some b =>
    match m.supportedSegments with
    | .ok ss =>
      match viewOf w.views.bankParameters b with
      | .ok p =>
        match find m c!"HIPINS" with
        | none => (⟨p, none, ss.map (segmentParameter w m)⟩, ss)
        | some q =>
          match viewOf w.views.pinTan q with
          | .ok ts => (⟨p, some (pinTanMap ts), ss.map (segmentParameter w m)⟩, ss)
          | _ => (⟨p, none, List.replicate ss.length (([], 0), none)⟩, ss)
      | _ => (k.1, ss)
    | _ => k

theorem parseBank_data (w : World σ α) (m : Decrypted σ) (s : St σ α) :
    ((parseBankParameterData w m s).2.d.bankParameterData, (parseBankParameterData w m s).2.d.supportedSegments) =
      bankUpdate w m (s.d.bankParameterData, s.d.supportedSegments) := by
  unfold parseBankParameterData bankUpdate
  cases find m c!"HIBPA" with
  | none => rfl
  | some b =>
    simp only [M.bind, M.lift, M.modify]
    cases m.supportedSegments with
    | err => rfl
    | panic => rfl
    | ok ss =>
      simp only
      cases viewOf w.views.bankParameters b with
      | err => rfl
      | panic => rfl
      | ok p =>
        simp only
        unfold parsePinTan
        cases find m c!"HIPINS" with
        | none => rfl
        | some q =>
          simp only [M.bind, M.lift, M.modify]
          cases viewOf w.views.pinTan q <;> rfl

theorem parseUPD_data (w : World σ α) (m : Decrypted σ) :
    Keeps (fun s => (s.d.bankParameterData, s.d.supportedSegments)) (parseUserParameterData w m) := by
  have ha : ∀ xs : List (Decoded σ), Keeps (fun s : St σ α => (s.d.bankParameterData, s.d.supportedSegments)) (parseAccounts w xs) := by
    intro xs
    induction xs with
    | nil => exact .lift _
    | cons x xs ih => exact .bind (.lift _) fun _ => .bind (.modify fun _ => rfl) fun _ => ih
  refine .bind ?_ fun _ => ha _
  unfold parseUser
  cases find m c!"HIUPA" with
  | none => exact .lift _
  | some p => exact .bind (.lift _) fun _ => .modify fun _ => rfl

theorem bank_part (w : World σ α) :
    Part w (fun d => (d.bankParameterData, d.supportedSegments)) (bankUpdate w) (fun _ k => k) where
  count _ _ := rfl
  dialogId _ _ := rfl
  crypto _ _ := rfl
  sig _ _ := rfl
  fn _ _ := rfl
  systemId _ _ := rfl
  parse m s := bind_value (f := fun s : St σ α => (s.d.bankParameterData, s.d.supportedSegments)) (parseBank_data w m s)
    fun _ => parseUPD_data w m

theorem learnWith_looked {w : World σ α} {e : Sent σ} {m : Decrypted σ} (h : Looked w e m) {δ : Type}
    (u : Decrypted σ → δ → δ) (k : δ) : learnWith w u (fun _ k => k) k e = u m k := by
  unfold learnWith
  rcases h with ⟨h1, ⟨h2, h3⟩ | ⟨h2, id, h3⟩⟩
  · rw [h2, h1]
    simp [h3]
  · rw [h2, h1]
    simp only
    rw [(assigns_iff w m id).2 h3]

theorem learnWith_skip {w : World σ α} {e : Sent σ} {δ : Type} {u : Decrypted σ → δ → δ} (k : δ)
    (h : ∀ m, Looked w e m → u m k = k) : learnWith w u (fun _ k => k) k e = k := by
  unfold learnWith
  split
  · rename_i m hk hr
    split
    · rfl
    · rename_i hd
      exact h m ⟨hr, .inl ⟨hk, hd⟩⟩
  · rename_i m hk hr
    split
    · rename_i id hid
      exact h m ⟨hr, .inr ⟨hk, id, (assigns_iff w m id).1 hid⟩⟩
    · rfl
  · rfl

theorem bankUpdate_known {w : World σ α} {m : Decrypted σ} {ss : List (Str × Int)} {p : BankParameters} {ts : List (Str × Bool)}
    (h : BankSays w m ss p ts) (k : BankParameterData σ × List (Str × Int)) :
    bankUpdate w m k = (⟨p, some (pinTanMap ts), ss.map (segmentParameter w m)⟩, ss) := by
  obtain ⟨b, h1, h2⟩ := h.parameters
  obtain ⟨q, h3, h4⟩ := h.transactions
  unfold bankUpdate
  rw [h1, h.supported]
  simp only
  rw [h2, h3]
  simp only
  rw [h4]

theorem segmentParameter_iff (w : World σ α) (m : Decrypted σ) (s : Str × Int) (y : Decoded σ) :
    (segmentParameter w m s).2 = some y ↔ find m s.1 = some y ∧ versionOf w y = s.2 := by
  unfold segmentParameter
  simp only [Option.filter_eq_some_iff]
  refine and_congr_right fun _ => ?_
  cases y <;> simp [versionOf]

/-! ## C86 -/

/-- C86: after every history, if the answer to some message was looked at and described the bank
completely, and no later answer that was looked at contained bank parameters, then the dialog knows exactly what
that answer says. -/
theorem C86_bank_data (w : World σ α) (cs : List Call) (s : St σ α) (E F : List (Sent σ)) (e : Sent σ) (m : Decrypted σ)
    (ss : List (Str × Int)) (p : BankParameters) (ts : List (Str × Bool))
    (hsent : (runAll w cs s).sent = s.sent ++ (E ++ e :: F)) (hl : Looked w e m) (hb : BankSays w m ss p ts)
    (hF : ∀ g ∈ F, ∀ x, Looked w g x → find x c!"HIBPA" = none) :
    BankKnown w m ss p ts (runAll w cs s).d := by
  obtain ⟨E', h1, h2⟩ := (bank_part w).history cs s
  rw [h1] at hsent
  rw [List.append_cancel_left hsent, List.foldl_append, List.foldl_cons, learnWith_looked hl, bankUpdate_known hb] at h2
  have key : ∀ (F : List (Sent σ)) k, (∀ g ∈ F, ∀ x, Looked w g x → find x c!"HIBPA" = none) →
      F.foldl (learnWith w (bankUpdate w) fun _ k => k) k = k := by
    intro F
    induction F with
    | nil => intro k _; rfl
    | cons g F ih =>
      intro k hF
      rw [List.foldl_cons, learnWith_skip k, ih k fun g' hg' => hF g' (List.mem_cons_of_mem _ hg')]
      intro x hx
      unfold bankUpdate
      rw [hF g List.mem_cons_self x hx]
  rw [key F _ hF] at h2
  simp only [Prod.mk.injEq] at h2
  refine ⟨h2.2, by rw [h2.1], ⟨pinTanMap ts, by rw [h2.1], pinTanMap_iff ts⟩, ?_⟩
  rw [h2.1]
  simp only
  rw [List.forall₂_map_right_iff]
  exact List.forall₂_same.2 fun s _ => ⟨rfl, segmentParameter_iff w m s⟩

/-- C86: after every history in which no answer that was looked at contained bank parameters, the dialog knows about
the bank what it knew before. -/
theorem C86_unchanged (w : World σ α) (cs : List Call) (s : St σ α) (E : List (Sent σ))
    (hsent : (runAll w cs s).sent = s.sent ++ E) (hE : ∀ g ∈ E, ∀ x, Looked w g x → find x c!"HIBPA" = none) :
    (runAll w cs s).d.bankParameterData = s.d.bankParameterData ∧
    (runAll w cs s).d.supportedSegments = s.d.supportedSegments := by
  obtain ⟨E', h1, h2⟩ := (bank_part w).history cs s
  rw [h1] at hsent
  rw [List.append_cancel_left hsent] at h2
  have key : ∀ (F : List (Sent σ)) k, (∀ g ∈ F, ∀ x, Looked w g x → find x c!"HIBPA" = none) →
      F.foldl (learnWith w (bankUpdate w) fun _ k => k) k = k := by
    intro F
    induction F with
    | nil => intro k _; rfl
    | cons g F ih =>
      intro k hF
      rw [List.foldl_cons, learnWith_skip k, ih k fun g' hg' => hF g' (List.mem_cons_of_mem _ hg')]
      intro x hx
      unfold bankUpdate
      rw [hF g List.mem_cons_self x hx]
  rw [key E _ hE] at h2
  simpa using h2

/-- Non-vacuity of `C86_bank_data`: the first answer is looked at and describes the bank
completely, the later ones say nothing about it.  HKSAL is listed twice; the last entry counts. -/
example : ∃ E F e m ss p ts,
    (runAll Sample.telling [.sync, .send Sample.work] (Sample.fresh Sample.good)).sent = [] ++ (E ++ e :: F) ∧
    Looked Sample.telling e m ∧ BankSays Sample.telling m ss p ts ∧ F.length = 4 ∧
    (∀ g ∈ F, ∀ x, Looked Sample.telling g x → find x c!"HIBPA" = none) ∧
    LastEntry ts c!"HKSAL" false ∧ LastEntry ts c!"HKKAZ" false ∧ ¬ LastEntry ts c!"HKSAL" true ∧ ss ≠ [] := by
  have hc : (match (runAll Sample.telling [.sync, .send Sample.work] (Sample.fresh Sample.good)).sent with
      | e :: F => e.kind == .sync && F.length == 4 &&
        F.all (fun g => match g.reply with | .ok x => (find x c!"HIBPA").isNone | _ => true) &&
        (match e.reply with
        | .ok m => ((assignable Sample.telling m).bind fun _ => assignedId Sample.telling m) == .ok c!"sys1" &&
          m.supportedSegments == .ok [(c!"HIPINS", 1), (c!"HISALS", 1)] && (find m c!"HIBPA").isSome && (find m c!"HIPINS").isSome &&
          (match find m c!"HIBPA" with | some (.other _) => true | _ => false) &&
          (match find m c!"HIPINS" with | some (.other _) => true | _ => false)
        | _ => false)
      | [] => false) = true := by decide +kernel
  generalize (runAll Sample.telling [.sync, .send Sample.work] (Sample.fresh Sample.good)).sent = L at hc ⊢
  match L, hc with
  | e :: F, hc =>
    simp only [Bool.and_eq_true, beq_iff_eq, List.all_eq_true] at hc
    obtain ⟨⟨⟨hk, hF⟩, hall⟩, hm⟩ := hc
    cases hr : e.reply with
    | err => rw [hr] at hm; simp at hm
    | panic => rw [hr] at hm; simp at hm
    | ok m =>
      rw [hr] at hm
      simp only [Bool.and_eq_true, beq_iff_eq] at hm
      obtain ⟨⟨⟨⟨⟨h1, h2⟩, h3⟩, h4⟩, h5⟩, h6⟩ := hm
      refine ⟨[], F, e, m, _, ⟨12, ⟨280, c!"10000000"⟩, c!"Bank", 3, 0, 0, 0⟩,
        [(c!"HKSAL", true), (c!"HKKAZ", false), (c!"HKSAL", false)], rfl,
        ⟨hr, .inr ⟨hk, _, (assigns_iff _ _ _).1 h1⟩⟩, ⟨h2, ?_, ?_⟩, hF, ?_, ?_, ?_, ?_, by simp⟩
      · obtain ⟨b, hb⟩ := Option.isSome_iff_exists.1 h3
        refine ⟨b, hb, ?_⟩
        rw [hb] at h5
        cases b with
        | ack _ => simp at h5
        | other _ => rfl
      · obtain ⟨b, hb⟩ := Option.isSome_iff_exists.1 h4
        refine ⟨b, hb, ?_⟩
        rw [hb] at h6
        cases b with
        | ack _ => simp at h6
        | other _ => rfl
      · intro g hg x hx
        have := hall g hg
        rw [hx.1] at this
        simpa using this
      · rw [← pinTanMap_iff]; decide
      · rw [← pinTanMap_iff]; decide
      · rw [← pinTanMap_iff]; decide

end Verif.Dialog

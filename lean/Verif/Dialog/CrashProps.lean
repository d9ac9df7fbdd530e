import Verif.Dialog.Sample

/-
C123: what can crash a call of the dialog.
-/

namespace Verif.Dialog

open GoLib Element Element.Spec Segment Message Domain Transport

variable {σ α : Type}

/-! ## Specification -/

/-- Every text the dialog can put into a message is Latin-1. -/
def Printable (d : Dialog σ α) : Prop :=
  ∀ t ∈ [d.bankId.id, d.userId, d.clientId, d.clientSystemId, d.dialogId, d.productName, d.productVersion] ++
    providerTexts d.sig d.crypto, Latin1 t

/-- Nothing the dialog looks at in an answer to a message of kind `k` crashes it: the message header
has a dialog ID, the segments the dialog asks for are what their IDs say and have the fields it reads,
and every TAN procedure has a name.  The IDs taken over are Latin-1. -/
structure Harmless (w : World σ α) (k : Kind) (m : Decrypted σ) : Prop where
  dialogId : m.header.dialogId ≠ none
  segments : find m c!"HIBPA" ≠ none → m.supportedSegments ≠ .panic
  bank : ∀ x, find m c!"HIBPA" = some x → viewOf w.views.bankParameters x ≠ .panic
  pinTan : ∀ x, find m c!"HIPINS" = some x → viewOf w.views.pinTan x ≠ .panic
  user : ∀ x, find m c!"HIUPA" = some x → viewOf w.views.userParameters x ≠ .panic ∧
    ∀ p, viewOf w.views.userParameters x = .ok p → Latin1 p.userId
  accounts : ∀ x ∈ m.segments c!"HIUPD", viewOf w.views.account x ≠ .panic
  procedures : ∀ x, find m c!"HITANS" = some x → viewOf w.views.tanFunctions x ≠ .panic ∧
    ∀ fs, viewOf w.views.tanFunctions x = .ok fs → ∀ f ∈ fs, f.2 ≠ none
  announcement : k = .init → ∀ x, find m c!"HIKIM" = some x → viewOf w.views.announcement x ≠ .panic
  systemId : k = .sync → ∀ x, find m c!"HISYN" = some x → viewOf w.views.clientSystemId x ≠ .panic ∧
    ∀ i, viewOf w.views.clientSystemId x = .ok i → Latin1 i

/-- An answer that does not crash the dialog: reading it does not, and, if it opens a dialog, nothing the
dialog looks at does. -/
def Fine (w : World σ α) (e : Sent σ) : Prop :=
  e.reply ≠ .panic ∧ ((e.kind = .sync ∨ e.kind = .init) → ∀ m, e.reply = .ok m → Harmless w e.kind m)

/-- The texts of a call are Latin-1. -/
def PrintableCall : Call → Prop
  | .send j => ∀ x, some x ∈ j.segments → Writable x
  | .sendAnonymous j => ∀ x, some x ∈ j.segments → Writable x
  | .sync => True
  | .syncUser => True
  | .setPin p => Latin1 p

/-! ## Programs that do not crash -/

/-- Under the assumption `P`, the program does not crash if no answer it gets does, and leaves a result
with `Q`. -/
def Calm {β : Type} (w : World σ α) (P : Prop) (m : M σ α β) (Q : β → Prop) : Prop :=
  ∀ s, ∃ log, (m s).2.sent = s.sent ++ log ∧
    (P → Printable s.d → (∀ e ∈ log, Fine w e) →
      (m s).1 ≠ .panic ∧ Printable (m s).2.d ∧ ∀ b, (m s).1 = .ok b → Q b)

section rules

variable {β γ : Type} {w : World σ α} {P : Prop}

theorem Calm.bind {m : M σ α β} {f : β → M σ α γ} {Q : β → Prop} {R : γ → Prop} (h1 : Calm w P m Q)
    (h2 : ∀ b, Calm w (P ∧ Q b) (f b) R) : Calm w P (m.bind f) R := by
  intro s
  obtain ⟨l1, e1, k1⟩ := h1 s
  unfold M.bind
  rcases hm : m s with ⟨r, t⟩
  rw [hm] at e1 k1
  simp only at e1 k1
  cases r with
  | err => exact ⟨l1, e1, fun p a b => ⟨by simp, (k1 p a b).2.1, by simp⟩⟩
  | panic => exact ⟨l1, e1, fun p a b => absurd rfl (k1 p a b).1⟩
  | ok b =>
    obtain ⟨l2, e2, k2⟩ := h2 b t
    refine ⟨l1 ++ l2, by simp only [e2, e1, List.append_assoc], fun p a hl => ?_⟩
    obtain ⟨_, k12, k13⟩ := k1 p a fun e he => hl e (List.mem_append_left _ he)
    exact k2 ⟨p, k13 b rfl⟩ k12 fun e he => hl e (List.mem_append_right _ he)

theorem Calm.lift {o : Outcome β} {Q : β → Prop} (h : P → o ≠ .panic ∧ ∀ b, o = .ok b → Q b) :
    Calm w P (M.lift o) Q :=
  fun s => ⟨[], by simp [M.lift], fun p a _ => ⟨(h p).1, a, (h p).2⟩⟩

theorem Calm.modify {g : Dialog σ α → Dialog σ α} (h : P → ∀ d, Printable d → Printable (g d)) :
    Calm w P (M.modify g) fun _ => True :=
  fun s => ⟨[], by simp [M.modify], fun p a _ => ⟨by simp [M.modify], h p _ a, by simp⟩⟩

theorem Calm.state {f : St σ α → M σ α β} {Q : β → Prop} (h : ∀ t, Calm w (P ∧ Printable t.d) (f t) Q) :
    Calm w P (fun s => f s s) Q := by
  intro s
  obtain ⟨l, e, k⟩ := h s s
  exact ⟨l, e, fun p a b => k ⟨p, a⟩ a b⟩

theorem Calm.mono {m : M σ α β} {Q R : β → Prop} {P' : Prop} (h : Calm w P m Q) (hp : P' → P) (hq : ∀ b, Q b → R b) :
    Calm w P' m R := by
  intro s
  obtain ⟨l, e, k⟩ := h s
  exact ⟨l, e, fun p a b => ⟨(k (hp p) a b).1, (k (hp p) a b).2.1, fun x hx => hq x ((k (hp p) a b).2.2 x hx)⟩⟩

theorem Calm.deferred {m : M σ α β} {last : M σ α Unit} {Q : β → Prop} (h1 : Calm w P m Q)
    (h2 : Calm w P last fun _ => True) : Calm w P (M.deferred m last) Q := by
  intro s
  obtain ⟨l1, e1, k1⟩ := h1 s
  obtain ⟨l2, e2, k2⟩ := h2 (m s).2
  refine ⟨l1 ++ l2, by simp only [M.deferred, e2, e1, List.append_assoc], fun p a hl => ?_⟩
  obtain ⟨k11, k12, k13⟩ := k1 p a fun e he => hl e (List.mem_append_left _ he)
  obtain ⟨k21, k22, _⟩ := k2 p k12 fun e he => hl e (List.mem_append_right _ he)
  unfold M.deferred
  cases hq : (last (m s).2).1 with
  | panic => exact absurd hq k21
  | ok _ => exact ⟨by simpa [hq] using k11, k22, by simpa [hq] using k13⟩
  | err => exact ⟨by simpa [hq] using k11, k22, by simpa [hq] using k13⟩

end rules

/-! ## Sending -/

theorem printable_provider {d : Dialog σ α} (h : Printable d) : ∀ t ∈ providerTexts d.sig d.crypto, Latin1 t :=
  fun t ht => h t (List.mem_append_right _ ht)

theorem printable_counted {d : Dialog σ α} (n : Int) : Printable { d with messageCount := n } ↔ Printable d := Iff.rfl

/-- Without a PIN nothing is sent, and that is an error. -/
theorem encrypt_no_pin {m : BasicMessage} {segs : List (Option Seg)} (hc : m.content = some segs) {p : CryptoProvider}
    (now : Time.Civil) (hp : p.key.pin = []) (h1 : ∀ x ∈ m.sigBegin, Writable x) (h2 : ∀ x, some x ∈ segs → Writable x)
    (h3 : ∀ x ∈ m.sigEnd, Writable x) : m.encrypt p now = .err := by
  obtain ⟨a, ha⟩ := (segOpt_ok_iff _).2 h1
  obtain ⟨b, hb⟩ := (segs_ok_iff _).2 h2
  obtain ⟨c, hcc⟩ := (segOpt_ok_iff _).2 h3
  unfold BasicMessage.encrypt CryptoProvider.encrypt
  rw [hc]
  simp [ha, hb, hcc, hp]

/-- What is known about an answer that is not bad. -/
def Good (w : World σ α) (k : Kind) (m : Decrypted σ) : Prop :=
  Readable m ∧ ((k = .sync ∨ k = .init) → Harmless w k m)

theorem good_of_logged {w : World σ α} {e : Sent σ} {k : Kind} {v n : Int} {i : Str} {segs : List (Option Seg)}
    (hl : Logged w e k v n i segs) (hf : Fine w e) {m : Decrypted σ} (hm : e.reply = .ok m) : Good w k m := by
  obtain ⟨j, hj⟩ := hl.answered
  refine ⟨receive_readable (hj.symm.trans hm), fun hk => ?_⟩
  have := hf.2 (by rw [hl.kind]; exact hk) m hm
  rwa [hl.kind] at this

theorem no_pin_err (w : World σ α) (k : Kind) (m : BasicMessage) (segs : List (Option Seg)) (hc : m.content = some segs)
    (s : St σ α) (hp : s.d.crypto.key.pin = []) (h1 : ∀ x ∈ m.sigBegin, Writable x)
    (h2 : ∀ x, some x ∈ segs → Writable x) (h3 : ∀ x ∈ m.sigEnd, Writable x) : requestEncrypted w k m s = (.err, s) := by
  unfold requestEncrypted
  rw [encrypt_no_pin hc _ hp h1 h2 h3]

theorem calm_exchange {P : Prop} (w : World σ α) (k : Kind) (segs : List (Option Seg)) (v : Version)
    (h : P → ∀ x, some x ∈ segs → Writable x) : Calm w P (exchange w k segs v) (Good w k) := by
  intro s
  obtain ⟨h1, _, h3⟩ := exchange_spec w k segs v s
  rcases h3 with ⟨hn, h3, h4⟩ | ⟨_, e, h3, h4, h5⟩
  · refine ⟨[], by rw [h3, List.append_nil], fun p a _ => ⟨?_, by rw [h1]; exact a, fun b hb => absurd hb (h4 b)⟩⟩
    have hpin : s.d.crypto.key.pin = [] := by
      by_contra hne
      exact hn ⟨hne, a _ (by simp), printable_provider a, h p⟩
    unfold exchange M.bind
    simp only [newMessage_ok]
    unfold sign
    obtain ⟨m', hm, hs⟩ := sign_ok
      { header := newMsgHeader (-1) s.d.version.number s.d.dialogId (s.d.messageCount + 1)
        end_ := ⟨-1, s.d.messageCount + 1⟩, sigBegin := none, sigEnd := none, content := some segs, version := v, cache := [] }
      segs rfl s.d.sig (w.env (s.step + 1)).signTime
    simp only [hm]
    obtain ⟨segs', hc, _, hw⟩ := hs.content
    have hwr := hs.writable.2 fun t ht => printable_provider a t (by
      simp only [providerTexts, List.mem_cons, List.not_mem_nil, or_false] at ht ⊢
      tauto)
    rw [no_pin_err w k m' segs' hc]
    · simp
    · exact hpin
    · exact hwr.1
    · exact hw.2 (h p)
    · exact hwr.2
  · refine ⟨[e], h3, fun _ a hl => ?_⟩
    have hf := hl e (by simp)
    rw [h4, h1]
    exact ⟨hf.1, a, fun b hb => good_of_logged h5 hf hb⟩

theorem calm_exchangePlain {P : Prop} (w : World σ α) (k : Kind) (segs : List (Option Seg)) (v : Version)
    (h : P → ∀ x, some x ∈ segs → Writable x) : Calm w P (exchangePlain w k segs v) (Good w k) := by
  intro s
  obtain ⟨h1, _, h3⟩ := exchangePlain_spec w k segs v s
  rcases h3 with ⟨hn, h3, h4⟩ | ⟨_, e, h3, h4, _, h5⟩
  · refine ⟨[], by rw [h3, List.append_nil], fun p a _ => absurd ⟨a _ (by simp), h p⟩ hn⟩
  · refine ⟨[e], h3, fun _ a hl => ?_⟩
    have hf := hl e (by simp)
    rw [h4, h1]
    exact ⟨hf.1, a, fun b hb => good_of_logged h5 hf hb⟩

/-! ## Segments of the dialog -/

theorem latin1_ite {c : Prop} [Decidable c] {a b : Str} (ha : Latin1 a) (hb : Latin1 b) : Latin1 (if c then a else b) := by
  split
  · exact ha
  · exact hb

theorem identification_writable {bank : BankId} {a b : Str} {r : Bool} (h0 : Latin1 bank.id) (h1 : Latin1 a) (h2 : Latin1 b) :
    Writable (identificationSeg bank a b r) := by
  have h : Latin1 c!"HKIDN" := latin1_of_all (by decide)
  unfold Writable
  simp [identificationSeg, newSegment, newHeader, bankIdentification, textsAll, texts, h, h0, h1, h2]

theorem preparation_writable {a b c : Int} {n v : Str} (h1 : Latin1 n) (h2 : Latin1 v) :
    Writable (preparationSeg a b c n v) := by
  have h : Latin1 c!"HKVVB" := latin1_of_all (by decide)
  have hn : Latin1 (if n = [] then c!"5A624F86A785F4024DD914404" else n) := latin1_ite (latin1_of_all (by decide)) h1
  have hv : Latin1 (if v = [] then c!"0.3.2" else v) := latin1_ite (latin1_of_all (by decide)) h2
  unfold Writable preparationSeg
  refine ⟨h, ?_⟩
  simp only [newSegment, textsAll, texts, List.nil_append, List.cons_append, List.mem_cons, List.not_mem_nil, or_false]
  rintro t (rfl | rfl)
  · exact hn
  · exact hv

theorem synchronisation_writable (v : Version) : Writable (synchronisationSeg v) := by
  have h : Latin1 c!"HKSYN" := latin1_of_all (by decide)
  have h0 : Latin1 c!"0" := latin1_of_all (by decide)
  cases v <;>
  · unfold Writable
    simp [synchronisationSeg, newSegment, newHeader, textsAll, texts, h, h0]

theorem tanRequest_writable {i : Str} (h0 : Latin1 i) : Writable (tanRequestV6 i) := by
  have h : Latin1 c!"HKTAN" := latin1_of_all (by decide)
  have h4 : Latin1 c!"4" := latin1_of_all (by decide)
  unfold Writable
  simp [tanRequestV6, newSegment, newHeader, textsAll, texts, h, h0, h4]

theorem sync_writable {d : Dialog σ α} (h : Printable d) : ∀ x, some x ∈ syncSegments d → Writable x := by
  intro x hx
  simp only [syncSegments, List.mem_cons, Option.some.injEq, List.not_mem_nil, or_false, reduceCtorEq, false_or] at hx
  rcases hx with rfl | rfl | rfl | rfl
  · exact identification_writable (h _ (by simp)) (h _ (by simp)) (latin1_of_all (by decide))
  · exact preparation_writable (h _ (by simp)) (h _ (by simp))
  · exact (tanRequest_writable (latin1_of_all (by decide)))
  · exact synchronisation_writable _

theorem init_writable {d : Dialog σ α} (h : Printable d) : ∀ x, some x ∈ initSegments d → Writable x := by
  intro x hx
  simp only [initSegments, List.mem_cons, Option.some.injEq, List.not_mem_nil, or_false, reduceCtorEq] at hx
  rcases hx with rfl | rfl | rfl
  · exact identification_writable (h _ (by simp)) (h _ (by simp)) (h _ (by simp))
  · exact preparation_writable (h _ (by simp)) (h _ (by simp))
  · exact (tanRequest_writable (latin1_of_all (by decide)))

theorem anonymous_writable {d : Dialog σ α} (h : Printable d) : ∀ x, some x ∈ anonymousSegments d → Writable x := by
  intro x hx
  simp only [anonymousSegments, List.mem_cons, Option.some.injEq, List.not_mem_nil, or_false, reduceCtorEq] at hx
  rcases hx with rfl | rfl
  · exact identification_writable (h _ (by simp)) (latin1_of_all (by decide)) (latin1_of_all (by decide))
  · exact preparation_writable (h _ (by simp)) (h _ (by simp))

/-! ## Reading the answers -/

theorem checkAcks_calm (m : Decrypted σ) : checkAcks m ≠ .panic := by
  unfold checkAcks
  split <;> simp

theorem printable_dialogId {d : Dialog σ α} {i : Str} (h : Printable d) (hi : Latin1 i) : Printable { d with dialogId := i } := by
  intro t ht
  simp only [List.cons_append, List.nil_append, List.mem_cons] at ht
  rcases ht with rfl | rfl | rfl | rfl | rfl | rfl | rfl | ht
  all_goals first | exact hi | exact h _ (List.mem_append_right _ ht) | exact h _ (by simp)

theorem printable_systemId {d : Dialog σ α} {i : Str} (h : Printable d) (hi : Latin1 i) : Printable (setClientSystemId i d) := by
  intro t ht
  simp only [setClientSystemId, providerTexts, List.cons_append, List.nil_append, List.mem_cons, List.not_mem_nil, or_false] at ht
  rcases ht with rfl | rfl | rfl | rfl | rfl | rfl | rfl | rfl | rfl | rfl | rfl | rfl | rfl | rfl | rfl | rfl | rfl | rfl
  all_goals first | exact hi | exact h _ (by simp [providerTexts])

theorem printable_function {d : Dialog σ α} {i : Str} (h : Printable d) (hi : Latin1 i) : Printable (setSecurityFunction i d) := by
  intro t ht
  simp only [setSecurityFunction, providerTexts, List.cons_append, List.nil_append, List.mem_cons, List.not_mem_nil, or_false] at ht
  rcases ht with rfl | rfl | rfl | rfl | rfl | rfl | rfl | rfl | rfl | rfl | rfl | rfl | rfl | rfl | rfl | rfl | rfl | rfl
  all_goals first | exact hi | exact h _ (by simp [providerTexts])

theorem printable_crypto {d : Dialog σ α} {i : Str} (h : Printable d) (hi : Latin1 i) :
    Printable { d with crypto := { d.crypto with clientSystemId := i } } := by
  intro t ht
  simp only [providerTexts, List.cons_append, List.nil_append, List.mem_cons, List.not_mem_nil, or_false] at ht
  rcases ht with rfl | rfl | rfl | rfl | rfl | rfl | rfl | rfl | rfl | rfl | rfl | rfl | rfl | rfl | rfl | rfl | rfl | rfl
  all_goals first | exact hi | exact h _ (by simp [providerTexts])

theorem printable_clientId {d : Dialog σ α} {i : Str} {p : UserParameters} (h : Printable d) (hi : Latin1 i) :
    Printable { d with userParameters := p, clientId := i } := by
  intro t ht
  simp only [List.cons_append, List.nil_append, List.mem_cons] at ht
  rcases ht with rfl | rfl | rfl | rfl | rfl | rfl | rfl | ht
  all_goals first | exact hi | exact h _ (List.mem_append_right _ ht) | exact h _ (by simp)

theorem calm_dialogId {P : Prop} (w : World σ α) {k : Kind} (hk : k = .sync ∨ k = .init) (m : Decrypted σ)
    (h : P → Good w k m) : Calm w P (takeDialogId m) fun _ => True := by
  intro s
  unfold takeDialogId
  cases hd : m.header.dialogId with
  | none => exact ⟨[], by simp, fun p _ _ => absurd hd ((h p).2 hk).dialogId⟩
  | some i => exact ⟨[], by simp, fun p a _ => ⟨by simp, printable_dialogId a ((h p).1.dialogId i hd), by simp⟩⟩

theorem calm_bank {P : Prop} (w : World σ α) {k : Kind} (hk : k = .sync ∨ k = .init) (m : Decrypted σ)
    (h : P → Good w k m) : Calm w P (parseBankParameterData w m) fun _ => True := by
  unfold parseBankParameterData
  cases hb : find m c!"HIBPA" with
  | none => exact .lift fun _ => ⟨by simp, by simp⟩
  | some b =>
    refine .bind (Q := fun _ => True) (.lift fun p => ⟨((h p).2 hk).segments (by simp [hb]), by simp⟩) fun ss => ?_
    refine .bind (Q := fun _ => True) (.modify fun _ d a => a) fun _ => ?_
    refine .bind (Q := fun _ => True) (.lift fun p => ⟨((h p.1.1).2 hk).bank _ hb, by simp⟩) fun q => ?_
    refine .bind (Q := fun _ => True) (.modify fun _ d a => a) fun _ => ?_
    refine .bind (Q := fun _ => True) ?_ fun _ => .modify fun _ d a => a
    unfold parsePinTan
    cases hp : find m c!"HIPINS" with
    | none => exact .lift fun _ => ⟨by simp, by simp⟩
    | some t =>
      exact .bind (Q := fun _ => True) (.lift fun p => ⟨((h p.1.1.1.1).2 hk).pinTan _ hp, by simp⟩) fun _ =>
        .modify fun _ d a => a

theorem calm_accounts {P : Prop} (w : World σ α) (xs : List (Decoded σ))
    (h : P → ∀ x ∈ xs, viewOf w.views.account x ≠ .panic) : Calm w P (parseAccounts w xs) fun _ => True := by
  induction xs generalizing P with
  | nil => exact .lift fun _ => ⟨by simp, by simp⟩
  | cons x xs ih =>
    refine .bind (Q := fun _ => True) (.lift fun p => ⟨h p x (by simp), by simp⟩) fun _ => ?_
    refine .bind (Q := fun _ => True) (.modify fun _ d a => a) fun _ => ?_
    exact ih fun p y hy => h p.1.1 y (by simp [hy])

theorem calm_user {P : Prop} (w : World σ α) {k : Kind} (hk : k = .sync ∨ k = .init) (m : Decrypted σ)
    (h : P → Good w k m) : Calm w P (parseUserParameterData w m) fun _ => True := by
  unfold parseUserParameterData
  refine .bind (Q := fun _ => True) ?_ fun _ => calm_accounts w _ fun p => ((h p.1).2 hk).accounts
  unfold parseUser
  cases hu : find m c!"HIUPA" with
  | none => exact .lift fun _ => ⟨by simp, by simp⟩
  | some u =>
    refine .bind (Q := fun p => Latin1 p.userId) (.lift fun p => ((h p).2 hk).user u hu) fun q => ?_
    exact .modify fun p d a => printable_clientId a p.2

theorem commonFunctions_calm {av : List (Str × Option Str)} (h : ∀ f ∈ av, f.2 ≠ none) :
    ∀ ps : List Str, commonFunctions av ps ≠ .panic
  | [] => by simp [commonFunctions]
  | p :: ps => by
    have ih := commonFunctions_calm h ps
    unfold commonFunctions
    cases hn : processName av p with
    | none => exact ih
    | some o =>
      cases o with
      | some _ =>
        simp only
        cases hc : commonFunctions av ps with
        | panic => exact absurd hc ih
        | ok _ => simp
        | err => simp
      | none =>
        exfalso
        unfold processName at hn
        cases hf : av.reverse.find? (fun q => q.1 == p) with
        | none => rw [hf] at hn; simp at hn
        | some q =>
          rw [hf] at hn
          simp only [Option.map_some, Option.some.injEq] at hn
          exact h q (by simpa using List.mem_of_find?_eq_some hf) hn

theorem calm_function {P : Prop} (w : World σ α) {k : Kind} (hk : k = .sync ∨ k = .init) (m : Decrypted σ)
    (h : P → Good w k m) : Calm w P (updateSecurityFunction w m) fun _ => True := by
  intro s
  have hs : (updateSecurityFunction w m s).2.sent = s.sent := by
    rcases updateSecurityFunction_spec w m s with h | ⟨fn, _, _, _, h⟩ <;> rw [h]
  refine ⟨[], by rw [hs, List.append_nil], fun p a _ => ⟨?_, ?_, by simp⟩⟩
  · unfold updateSecurityFunction
    split
    · simp
    · have hc : supportedFunctions w m ≠ .panic := by
        unfold supportedFunctions
        split
        · simp
        · split
          · simp
          · split
            · simp
            · rename_i x hx
              obtain ⟨h1, h2⟩ := ((h p).2 hk).procedures x hx
              cases hv : viewOf w.views.tanFunctions x with
              | panic => exact absurd hv h1
              | err => simp
              | ok fs => exact commonFunctions_calm (h2 fs hv) _
      cases hf : supportedFunctions w m with
      | panic => exact absurd hf hc
      | err => simp
      | ok fs =>
        simp only
        split
        · simp
        · simp
  · rcases updateSecurityFunction_spec w m s with hx | ⟨fn, hx, _, _, hy⟩
    · rw [hx]; exact a
    · rw [hy]; exact printable_function a (announces_latin1 hx (h p).1)

/-! ## The calls -/

theorem calm_end (P : Prop) (w : World σ α) : Calm w P (end_ w) fun _ => True := by
  have : Calm w P (fun s => ((exchange w .end_ [some (dialogEndSeg s.d.dialogId)] s.d.version).bind
      fun m => M.lift (checkAcks m)) s) fun _ => True := by
    refine Calm.state (f := fun s => (exchange w .end_ [some (dialogEndSeg s.d.dialogId)] s.d.version).bind
      fun m => M.lift (checkAcks m)) fun t => ?_
    refine .bind (calm_exchange w .end_ _ _ fun p => ?_) fun m => .lift fun _ => ⟨checkAcks_calm m, by simp⟩
    exact (dialogEnd_writable _).2 (p.2 _ (by simp))
  exact this

theorem syncRequest_err {w : World σ α} {s : St σ α} (h : Printable s.d) (hp : s.d.crypto.key.pin = []) :
    (syncRequest w s).1 = .err := by
  unfold syncRequest M.bind
  simp only [newMessage_ok]
  unfold sign
  obtain ⟨m', hm, hs⟩ := sign_ok
    { header := newMsgHeader (-1) s.d.version.number s.d.dialogId (s.d.messageCount + 1)
      end_ := ⟨-1, s.d.messageCount + 1⟩, sigBegin := none, sigEnd := none, content := some (syncSegments s.d)
      version := s.d.version, cache := [] }
    (syncSegments s.d) rfl s.d.sig (w.env (s.step + 1)).signTime
  simp only [hm, M.modify]
  obtain ⟨segs', hc, _, hw⟩ := hs.content
  have hwr := hs.writable.2 fun t ht => printable_provider h t (by
    simp only [providerTexts, List.mem_cons, List.not_mem_nil, or_false] at ht ⊢
    tauto)
  rw [no_pin_err w .sync m' segs' hc]
  · exact hp
  · exact hwr.1
  · exact hw.2 (sync_writable h)
  · exact hwr.2

theorem printable_reset {d : Dialog σ α} (h : Printable d) : Printable (resetCrypto d) :=
  printable_crypto h (latin1_of_all (by decide))

theorem calm_syncRequest (P : Prop) (w : World σ α) : Calm w P (syncRequest w) (Good w .sync) := by
  intro s
  obtain ⟨h1, _, h3⟩ := syncRequest_spec w s
  rcases h3 with ⟨hn, h3, h4⟩ | ⟨_, e, h3, h4, h5⟩
  · refine ⟨[], by rw [h3, List.append_nil], fun _ a _ => ⟨?_, by rw [h1]; exact (printable_counted _).2 (printable_reset a),
      fun b hb => absurd hb (h4 b)⟩⟩
    have hpin : s.d.crypto.key.pin = [] := by
      by_contra hne
      exact hn ⟨hne, a s.d.dialogId (by simp), printable_provider (printable_reset a), sync_writable a⟩
    rw [syncRequest_err a hpin]
    simp
  · refine ⟨[e], h3, fun _ a hl => ?_⟩
    have hf := hl e (by simp)
    rw [h4, h1]
    exact ⟨hf.1, (printable_counted _).2 (printable_reset a), fun b hb => good_of_logged h5 hf hb⟩

theorem calm_sync (P : Prop) (w : World σ α) : Calm w P (syncClientSystemId w) Latin1 := by
  have hk : Kind.sync = .sync ∨ Kind.sync = .init := .inl rfl
  unfold syncClientSystemId
  refine .bind (calm_syncRequest P w) fun m => ?_
  refine .bind (calm_dialogId w hk m fun p => p.2) fun _ => ?_
  refine .bind (Q := fun _ => True) (.lift fun _ => ⟨checkAcks_calm m, by simp⟩) fun _ => ?_
  refine .bind (calm_function w hk m fun p => p.1.1.2) fun _ => ?_
  refine .bind (Q := fun _ => True) ?_ fun _ => ?_
  · unfold takeClientSystemId
    cases hx : find m c!"HISYN" with
    | none => exact .lift fun _ => ⟨by simp, by simp⟩
    | some x =>
      refine .bind (Q := Latin1) (.lift fun p => ?_) fun i => .modify fun p d a => printable_systemId a p.2
      exact (p.1.1.1.2.2 hk).systemId rfl x hx
  · refine .bind (calm_bank w hk m fun p => p.1.1.1.1.2) fun _ => ?_
    refine .bind (calm_user w hk m fun p => p.1.1.1.1.1.2) fun _ => ?_
    refine .bind (calm_end _ w) fun _ => ?_
    intro s
    exact ⟨[], by simp, fun _ a _ => ⟨by simp, a, fun b hb => by
      simp only [Outcome.ok.injEq] at hb
      rw [← hb]
      exact a _ (by simp)⟩⟩

theorem calm_opened {P : Prop} (w : World σ α) (m : Decrypted σ) (h : P → Good w .init m) :
    Calm w P (opened w m) fun _ => True := by
  have hk : Kind.init = .sync ∨ Kind.init = .init := .inr rfl
  unfold opened
  refine .bind (calm_dialogId w hk m h) fun _ => ?_
  refine .bind (calm_bank w hk m fun p => h p.1) fun _ => ?_
  refine .bind (calm_user w hk m fun p => h p.1.1) fun _ => ?_
  refine .bind (Q := fun _ => True) (.lift fun p => ?_) fun _ => ?_
  · unfold announcement
    cases hx : find m c!"HIKIM" with
    | none => exact ⟨by simp, by simp⟩
    | some x => exact ⟨((h p.1.1.1).2 hk).announcement rfl x hx, by simp⟩
  · refine .bind (Q := fun _ => True) (.lift fun _ => ⟨checkAcks_calm m, by simp⟩) fun _ => ?_
    exact calm_function w hk m fun p => h p.1.1.1.1.1

theorem calm_open (P : Prop) (w : World σ α) : Calm w P (open_ w) fun _ => True := by
  have h0 : Latin1 c!"0" := latin1_of_all (by decide)
  unfold open_
  refine .bind (Q := fun _ => True) (.modify fun _ d a => printable_dialogId a h0) fun _ => ?_
  refine Calm.state (f := fun s => (exchange w .init (initSegments s.d) s.d.version).bind fun m => opened w m) fun t => ?_
  exact .bind (calm_exchange w .init _ _ fun p => init_writable p.2) fun m => calm_opened w m fun p => p.2

theorem calm_init (P : Prop) (w : World σ α) : Calm w P (init w) fun _ => True := by
  unfold init
  refine .bind (Q := fun _ => True) ?_ fun _ => calm_open _ w
  intro s
  unfold ensureClientSystemId
  split
  · have : Calm w P ((syncClientSystemId w).bind fun id => M.modify fun d => { d with clientSystemId := id }) fun _ => True := by
      refine .bind (calm_sync P w) fun i => .modify fun p d a => ?_
      intro t ht
      simp only [List.cons_append, List.nil_append, List.mem_cons] at ht
      rcases ht with rfl | rfl | rfl | rfl | rfl | rfl | rfl | ht
      all_goals first | exact p.2 | exact a _ (List.mem_append_right _ ht) | exact a _ (by simp)
    exact this s
  · exact ⟨[], by simp, fun _ a _ => ⟨by simp, a, by simp⟩⟩

theorem calm_anonymousInit (P : Prop) (w : World σ α) : Calm w P (anonymousInit w) fun _ => True := by
  have hk : Kind.init = .sync ∨ Kind.init = .init := .inr rfl
  have h0 : Latin1 c!"0" := latin1_of_all (by decide)
  unfold anonymousInit
  refine .bind (Q := fun _ => True) (.modify fun _ d a => printable_dialogId a h0) fun _ => ?_
  refine Calm.state (f := fun s => (exchangePlain w .init (anonymousSegments s.d) s.d.version).bind
    fun m => anonymousOpened w m) fun t => ?_
  refine .bind (calm_exchangePlain w .init _ _ fun p => anonymous_writable p.2) fun m => ?_
  unfold anonymousOpened
  refine .bind (calm_dialogId w hk m fun p => p.2) fun _ => ?_
  refine .bind (calm_bank w hk m fun p => p.1.2) fun _ => ?_
  refine .bind (calm_user w hk m fun p => p.1.1.2) fun _ => ?_
  refine .bind (Q := fun _ => True) (.lift fun p => ?_) fun _ => .lift fun _ => ⟨checkAcks_calm m, by simp⟩
  unfold announcement
  cases hx : find m c!"HIKIM" with
  | none => exact ⟨by simp, by simp⟩
  | some x => exact ⟨(p.1.1.1.2.2 hk).announcement rfl x hx, by simp⟩

theorem calm_anonymousEnd (P : Prop) (w : World σ α) : Calm w P (anonymousEnd w) fun _ => True := by
  have : Calm w P (fun s => ((exchangePlain w .end_ [some (dialogEndSeg s.d.dialogId)] s.d.version).bind
      fun m => M.lift (checkAcks m)) s) fun _ => True := by
    refine Calm.state (f := fun s => (exchangePlain w .end_ [some (dialogEndSeg s.d.dialogId)] s.d.version).bind
      fun m => M.lift (checkAcks m)) fun t => ?_
    refine .bind (calm_exchangePlain w .end_ _ _ fun p => ?_) fun m => .lift fun _ => ⟨checkAcks_calm m, by simp⟩
    exact (dialogEnd_writable _).2 (p.2 _ (by simp))
  exact this

/-- A job and the end of its dialog. -/
theorem calm_send {P : Prop} (w : World σ α) {j : Job} (h : P → ∀ x, some x ∈ j.segments → Writable x) :
    Calm w P (sendMessage w j) Readable := by
  unfold sendMessage
  refine .bind (calm_init P w) fun _ => .deferred ?_ (calm_end _ w)
  unfold job
  refine .bind (calm_exchange w .job _ _ fun p => h p.1) fun m => ?_
  exact .bind (Q := fun _ => True) (.lift fun _ => ⟨checkAcks_calm m, by simp⟩) fun _ =>
    .lift fun p => ⟨by simp, fun b hb => by
      simp only [Outcome.ok.injEq] at hb
      rw [← hb]
      exact p.1.2.1⟩

theorem calm_sendAnonymous {P : Prop} (w : World σ α) {j : Job} (h : P → ∀ x, some x ∈ j.segments → Writable x) :
    Calm w P (sendAnonymousMessage w j) fun _ => True := by
  unfold sendAnonymousMessage
  refine .bind (calm_anonymousInit P w) fun _ => .deferred ?_ (calm_anonymousEnd _ w)
  unfold anonymousJob
  refine .bind (calm_exchangePlain w .job _ _ fun p => h p.1) fun m => ?_
  exact .bind (Q := fun _ => True) (.lift fun _ => ⟨checkAcks_calm m, by simp⟩) fun _ => .lift fun _ => ⟨by simp, by simp⟩

theorem calm_syncUser (P : Prop) (w : World σ α) : Calm w P (syncUserParameterData w) fun _ => True := by
  unfold syncUserParameterData
  exact .bind (calm_init P w) fun _ => .deferred (.lift fun _ => ⟨by simp, by simp⟩) (calm_end _ w)

theorem calm_setPin {P : Prop} (w : World σ α) (hc : ∀ k, Latin1 (w.controlRef k)) {pin : Str} (h : P → Latin1 pin) :
    Calm w P (setPin w pin) fun _ => True := by
  unfold setPin
  refine .modify fun p d a => ?_
  intro t ht
  simp only [providerTexts, signatureProvider, cryptoProvider, pinTanKeyName, List.cons_append, List.nil_append,
    List.mem_cons, List.not_mem_nil, or_false] at ht
  rcases ht with rfl | rfl | rfl | rfl | rfl | rfl | rfl | rfl | rfl | rfl | rfl | rfl | rfl | rfl | rfl | rfl | rfl | rfl
  all_goals first | exact h p | exact hc _ | exact latin1_of_all (by decide) | exact a _ (by simp)

theorem calm_run (w : World σ α) (hc : ∀ k, Latin1 (w.controlRef k)) (c : Call) :
    Calm w (PrintableCall c) (run w c) fun _ => True := by
  have key : ∀ {β : Type} {m : M σ α β} {Q : β → Prop}, Calm w (PrintableCall c) m Q →
      Calm w (PrintableCall c) (fun s => void (m s)) fun _ => True := by
    intro β m Q h s
    obtain ⟨l, e, k⟩ := h s
    refine ⟨l, e, fun p a b => ⟨?_, (k p a b).2.1, by simp⟩⟩
    have := (k p a b).1
    unfold void
    cases hm : (m s).1 <;> simp_all
  cases c with
  | send j => exact key (calm_send w fun p => p)
  | sendAnonymous j => exact key (calm_sendAnonymous w fun p => p)
  | sync => exact key (calm_sync _ w)
  | syncUser => exact key (calm_syncUser _ w)
  | setPin p => exact key (calm_setPin w hc fun p => p)

/-! ## C123 -/

/-- **C123** If no answer of a call crashes the dialog, the call does not crash, and the dialog's texts
stay Latin-1. -/
theorem C123_call (w : World σ α) (hc : ∀ k, Latin1 (w.controlRef k)) (c : Call) (s : St σ α) (h : Printable s.d)
    (hp : PrintableCall c) (log : List (Sent σ)) (hl : (run w c s).2.sent = s.sent ++ log) (hf : ∀ e ∈ log, Fine w e) :
    (run w c s).1 ≠ .panic ∧ Printable (run w c s).2.d := by
  obtain ⟨l, e, k⟩ := calm_run w hc c s
  obtain rfl : l = log := List.append_cancel_left (e.symm.trans hl)
  exact ⟨(k hp h hf).1, (k hp h hf).2.1⟩

/-- A new dialog is printable. -/
theorem printable_new (w : World σ α) (hc : ∀ k, Latin1 (w.controlRef k)) (bank : BankId) (user : Str) (v : Version)
    (name version : Str) (h : ∀ t ∈ [bank.id, user, name, version], Latin1 t) :
    Printable (newPinTanDialog w bank user v name version) := by
  have h1 := h bank.id (by simp)
  have h2 := h user (by simp)
  have h3 := h name (by simp)
  have h4 := h version (by simp)
  intro t ht
  simp only [newPinTanDialog, providerTexts, signatureProvider, cryptoProvider, pinTanKeyName, List.cons_append,
    List.nil_append, List.mem_cons, List.not_mem_nil, or_false] at ht
  rcases ht with rfl | rfl | rfl | rfl | rfl | rfl | rfl | rfl | rfl | rfl | rfl | rfl | rfl | rfl | rfl | rfl | rfl | rfl
  all_goals first | assumption | exact hc _ | exact latin1_nil | exact latin1_of_all (by decide)

/-- **C123** A dialog made from Latin-1 texts never crashes, whatever calls are made on it, as long as no
answer of the bank crashes it. -/
theorem C123_history (w : World σ α) (hc : ∀ k, Latin1 (w.controlRef k)) (bank : BankId) (user : Str) (v : Version)
    (name version : Str) (h : ∀ t ∈ [bank.id, user, name, version], Latin1 t) (cs : List Call) (c : Call)
    (hp : ∀ x ∈ cs ++ [c], PrintableCall x)
    (hf : ∀ e ∈ (runAll w (cs ++ [c]) ⟨newPinTanDialog w bank user v name version, 0, []⟩).sent, Fine w e) :
    (run w c (runAll w cs ⟨newPinTanDialog w bank user v name version, 0, []⟩)).1 ≠ .panic := by
  have happ : ∀ (xs ys : List Call) (s : St σ α), runAll w (xs ++ ys) s = runAll w ys (runAll w xs s) := by
    intro xs ys s
    induction xs generalizing s with
    | nil => rfl
    | cons x xs ih => exact ih _
  have key : ∀ (xs : List Call) (s : St σ α), Printable s.d → (∀ x ∈ xs, PrintableCall x) →
      ∃ log, (runAll w xs s).sent = s.sent ++ log ∧ ((∀ e ∈ log, Fine w e) → Printable (runAll w xs s).d) := by
    intro xs
    induction xs with
    | nil => exact fun s a _ => ⟨[], by simp [runAll], fun _ => a⟩
    | cons x xs ih =>
      intro s a hx
      obtain ⟨l1, e1, k1⟩ := calm_run w hc x s
      by_cases hg : ∀ e ∈ l1, Fine w e
      · obtain ⟨l2, e2, k2⟩ := ih _ (k1 (hx x (by simp)) a hg).2.1 fun y hy => hx y (by simp [hy])
        exact ⟨l1 ++ l2, by simp only [runAll, e2, e1, List.append_assoc],
          fun hl => k2 fun e he => hl e (List.mem_append_right _ he)⟩
      · have grow : ∀ (ys : List Call) (t : St σ α), ∃ l, (runAll w ys t).sent = t.sent ++ l := by
          intro ys
          induction ys with
          | nil => exact fun t => ⟨[], by simp [runAll]⟩
          | cons y ys ih =>
            intro t
            obtain ⟨m1, f1, _⟩ := calm_run w hc y t
            obtain ⟨m2, f2⟩ := ih (run w y t).2
            exact ⟨m1 ++ m2, by simp only [runAll, f2, f1, List.append_assoc]⟩
        obtain ⟨l2, e2⟩ := grow xs (run w x s).2
        exact ⟨l1 ++ l2, by simp only [runAll, e2, e1, List.append_assoc],
          fun hl => absurd (fun e he => hl e (List.mem_append_left _ he)) hg⟩
  obtain ⟨l1, e1, k1⟩ := key cs ⟨newPinTanDialog w bank user v name version, 0, []⟩ (printable_new w hc bank user v name version h)
    fun x hx => hp x (by simp [hx])
  obtain ⟨l2, e2, k2⟩ := calm_run w hc c (runAll w cs ⟨newPinTanDialog w bank user v name version, 0, []⟩)
  have hs : (runAll w (cs ++ [c]) ⟨newPinTanDialog w bank user v name version, 0, []⟩).sent = l1 ++ l2 := by
    rw [happ]
    simp only [runAll, e2, e1, List.nil_append]
  rw [hs] at hf
  exact (k2 (hp c (by simp)) (k1 fun e he => hf e (List.mem_append_left _ he))
    fun e he => hf e (List.mem_append_right _ he)).1

/-! ## Examples -/

/-- What has to be looked at in an answer of the sample banks. -/
def sampleFine (e : Sent Bytes) : Bool :=
  match e.reply with
  | .panic => false
  | .err => true
  | .ok m => m.header.dialogId.isSome && ([c!"HIBPA", c!"HIPINS", c!"HIUPA", c!"HIUPD", c!"HITANS", c!"HIKIM", c!"HISYN"].all
      fun i => (m.segments i).all fun x => match x with | .ack _ => false | .other _ => true) &&
      (match m.supportedSegments with | .panic => false | _ => true)

theorem sampleFine_spec (a : Nat → Outcome Body) (e : Sent Bytes) (h : sampleFine e = true) : Fine (Sample.world a) e := by
  unfold sampleFine at h
  refine ⟨fun hp => by rw [hp] at h; simp at h, fun _ m hm => ?_⟩
  rw [hm] at h
  simp only [Bool.and_eq_true, List.all_eq_true] at h
  obtain ⟨⟨h1, h2⟩, h3⟩ := h
  have ho : ∀ i ∈ [c!"HIBPA", c!"HIPINS", c!"HIUPA", c!"HIUPD", c!"HITANS", c!"HIKIM", c!"HISYN"], ∀ x ∈ m.segments i,
      ∃ b, x = .other b := by
    intro i hi x hx
    have := h2 i hi x hx
    cases x with
    | ack _ => simp at this
    | other b => exact ⟨b, rfl⟩
  have hf : ∀ i ∈ [c!"HIBPA", c!"HIPINS", c!"HIUPA", c!"HIUPD", c!"HITANS", c!"HIKIM", c!"HISYN"], ∀ x, find m i = some x →
      ∃ b, x = .other b := fun i hi x hx => ho i hi x (List.mem_of_head? hx)
  refine ⟨fun hn => by rw [hn] at h1; simp at h1, fun _ hp => by rw [hp] at h3; simp at h3, ?_, ?_, ?_, ?_, ?_, ?_, ?_⟩
  · intro x hx
    obtain ⟨b, rfl⟩ := hf _ (by simp) x hx
    simp [viewOf, Sample.world, Sample.views]
  · intro x hx
    obtain ⟨b, rfl⟩ := hf _ (by simp) x hx
    simp [viewOf, Sample.world, Sample.views]
  · intro x hx
    obtain ⟨b, rfl⟩ := hf _ (by simp) x hx
    simp [viewOf, Sample.world, Sample.views]
  · intro x hx
    obtain ⟨b, rfl⟩ := ho _ (by simp) x hx
    simp [viewOf, Sample.world, Sample.views]
  · intro x hx
    obtain ⟨b, rfl⟩ := hf _ (by simp) x hx
    refine ⟨by simp [viewOf, Sample.world, Sample.views], fun fs hfs => ?_⟩
    simp only [viewOf, Sample.world, Sample.views, Outcome.ok.injEq] at hfs
    rw [← hfs]
    decide
  · intro _ x hx
    obtain ⟨b, rfl⟩ := hf _ (by simp) x hx
    simp [viewOf, Sample.world, Sample.views]
  · intro _ x hx
    obtain ⟨b, rfl⟩ := hf _ (by simp) x hx
    refine ⟨by simp [viewOf, Sample.world, Sample.views], fun i hi => ?_⟩
    simp only [viewOf, Sample.world, Sample.views, Outcome.ok.injEq] at hi
    rw [← hi]
    exact latin1_of_all (by decide)

-- A PIN is set, the client is synchronised and a job is sent, at a bank with TAN procedures; with
-- the agreeable bank there are five answers.
set_option maxRecDepth 20000 in
example : (run (Sample.world Sample.functions) (.send Sample.work) (runAll (Sample.world Sample.functions) [.setPin c!"secret", .sync]
    ⟨newPinTanDialog (Sample.world Sample.functions) ⟨280, c!"10000000"⟩ c!"user" .fints300 [] [], 0, []⟩)).1 ≠ .panic ∧
    (runAll (Sample.world Sample.good) ([.setPin c!"secret", .sync] ++ [.send Sample.work])
      ⟨newPinTanDialog (Sample.world Sample.good) ⟨280, c!"10000000"⟩ c!"user" .fints300 [] [], 0, []⟩).sent.length = 5 := by
  have hw : ∀ x, some x ∈ Sample.work.segments → Writable x := by
    intro x hx
    simp only [Sample.work, List.mem_singleton, Option.some.injEq] at hx
    subst hx
    exact tanRequest_writable (latin1_of_all (by decide))
  refine ⟨C123_history (Sample.world Sample.functions) (fun _ => (latin1_of_all (by decide) : Latin1 c!"1234")) _ _ _ _ _ ?_ _ _ ?_ ?_, by decide +kernel⟩
  · intro t ht
    simp only [List.mem_cons, List.not_mem_nil, or_false] at ht
    rcases ht with rfl | rfl | rfl | rfl <;> exact latin1_of_all (by decide)
  · intro x hx
    simp only [List.cons_append, List.nil_append, List.mem_cons, List.not_mem_nil, or_false] at hx
    rcases hx with rfl | rfl | rfl
    · exact latin1_of_all (by decide)
    · trivial
    · exact hw
  · intro e he
    refine sampleFine_spec _ e ?_
    have : (runAll (Sample.world Sample.functions) ([.setPin c!"secret", .sync] ++ [.send Sample.work])
      ⟨newPinTanDialog (Sample.world Sample.functions) ⟨280, c!"10000000"⟩ c!"user" .fints300 [] [], 0, []⟩).sent.all sampleFine = true := by
      decide +kernel
    exact List.all_eq_true.1 this e he

end Verif.Dialog

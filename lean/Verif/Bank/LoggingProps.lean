import Verif.Bank.Sending
import Verif.Dialog.DeliveryProps
import Verif.Transport.Logging
import Verif.Segment.Requests
import Verif.Bank.AnswerSample

/-
C97: what the logging middleware does to a dialog, and what it writes.
-/

namespace Verif.Transport

open GoLib Message Segment

variable {σ : Type}

/-! ## Answers -/

theorem readMessageData_eq (other : Decoders σ) (raw : Bytes) : readMessageData other raw = receive other (.ok (raw, true)) := rfl

theorem logMessage_panic_iff (other : Decoders σ) (raw : Bytes) : logMessage other raw = .panic ↔ readMessageData other raw = .panic := by
  unfold logMessage writeMessage
  cases h : readMessageData other raw with
  | ok m => simp
  | panic => simp
  | err =>
    simp only [reduceCtorEq, iff_false]
    unfold writeRawSegments
    cases hx : (newExtractor raw).extract.2 with
    | ok ss => simp
    | err => simp
    | panic =>
      unfold readMessageData readResponse at h
      simp [hx] at h

theorem logMessage_ok {other : Decoders σ} {raw : Bytes} (h : readMessageData other raw ≠ .panic) : ∃ es, logMessage other raw = .ok es := by
  cases hl : logMessage other raw with
  | ok es => exact ⟨es, rfl⟩
  | panic => exact absurd ((logMessage_panic_iff other raw).1 hl) h
  | err =>
    unfold logMessage at hl
    split at hl <;> cases hl

/-- C97: what the client reads is the same with and without the log, provided the request itself can be read
without a panic. -/
theorem C97_answer (other : Decoders σ) (t : Transport) {body : Bytes} (h : receive other (.ok (body, true)) ≠ .panic) :
    receive other (logging other t body) = receive other ((t body).map' fun b => (b.1, true)) := by
  obtain ⟨es, he⟩ := logMessage_ok h
  unfold logging
  rw [he]
  simp only [Outcome.bind]
  cases t body with
  | err => rfl
  | panic => rfl
  | ok b =>
    simp only [Outcome.map']
    cases hl : logMessage other b.1 with
    | ok es => rfl
    | err => unfold logMessage at hl; split at hl <;> cases hl
    | panic =>
      have := (logMessage_panic_iff other b.1).1 hl
      rw [readMessageData_eq] at this
      rw [this]
      rfl

/-- C97: and if it cannot, nothing is sent. -/
theorem C97_unreadable (other : Decoders σ) (t : Transport) {body : Bytes} (h : receive other (.ok (body, true)) = .panic) :
    logging other t body = .panic := by
  unfold logging
  rw [(logMessage_panic_iff other body).2 h]
  rfl

end Verif.Transport

namespace Verif.Bank

open GoLib Element Segment Message Token Transport Dialog

variable {α : Type}

/-! ## Specification -/

/-- The dialog with the logging middleware over each transport. -/
def logged (w : World BankSeg α) : World BankSeg α :=
  { w with env := fun n => { w.env n with transport := logging w.decoders (w.env n).transport } }

/-- The dialog without it.  The middleware reads each answer to its end, and passes on what there was even if
that failed. -/
def unlogged (w : World BankSeg α) : World BankSeg α :=
  { w with env := fun n => { w.env n with transport := fun b => ((w.env n).transport b).map' fun b => (b.1, true) } }

/-- A job: segments of a client, without binary data. -/
def Ordinary (j : Job) : Prop := ∀ s, some s ∈ j.segments → c!"HK" <+: s.header.id ∧ WordySeg s

/-- The jobs of a call. -/
def OrdinaryCall : Call → Prop
  | .send j => Ordinary j
  | .sendAnonymous j => Ordinary j
  | _ => True

/-- All messages sent are shorter than 256 tebibytes. -/
def Small (s : St BankSeg α) : Prop := ∀ e ∈ s.sent, e.bytes.length ≤ 2 ^ 48

/-! ## The same run -/

variable {P : Signer → Nat → Sent BankSeg → Prop}

/-- Two pieces of program that do the same as long as all messages are small. -/
def Same (P : Signer → Nat → Sent BankSeg → Prop) {β : Type} (m m' : M BankSeg α β) : Prop :=
  Handing P m ∧ ∀ s, OnePin s.d → Small (m s).2 → m' s = m s

theorem Small.before {s t : St BankSeg α} (h : Hands P s t) (ht : Small t) : Small s := by
  obtain ⟨E, _, h1, _⟩ := h.log
  intro e he
  exact ht e (by rw [h1]; simp [he])

theorem Same.of_eq {β : Type} {m : M BankSeg α β} (h : Handing P m) : Same P m m := ⟨h, fun _ _ _ => rfl⟩

theorem Same.of_eqs {β : Type} {m m' : M BankSeg α β} (h : Handing P m) (e : m' = m) : Same P m m' := ⟨h, fun _ _ _ => by rw [e]⟩

theorem Same.bind {β γ : Type} {m m' : M BankSeg α β} {g g' : β → M BankSeg α γ} (h1 : Same P m m') (h2 : ∀ b, Same P (g b) (g' b)) :
    Same P (m.bind g) (m'.bind g') := by
  refine ⟨h1.1.bind fun b => (h2 b).1, fun s hs hsm => ?_⟩
  have hh := h1.1 s hs
  unfold M.bind at *
  rcases h : m s with ⟨r, s'⟩
  rw [h] at hsm hh
  cases r with
  | ok b =>
    simp only at hsm
    have hp := hs.hands hh
    have e := h1.2 s hs (by rw [h]; exact hsm.before ((h2 b).1 s' hp))
    rw [e, h]
    exact (h2 b).2 s' hp hsm
  | err => rw [h1.2 s hs (by rw [h]; exact hsm), h]
  | panic => rw [h1.2 s hs (by rw [h]; exact hsm), h]

theorem Same.deferred {β : Type} {m m' : M BankSeg α β} {l l' : M BankSeg α Unit} (h1 : Same P m m') (h2 : Same P l l') :
    Same P (M.deferred m l) (M.deferred m' l') := by
  refine ⟨h1.1.deferred h2.1, fun s hs hsm => ?_⟩
  have hh := h1.1 s hs
  have hp := hs.hands hh
  unfold M.deferred at *
  simp only at hsm ⊢
  rw [h1.2 s hs (hsm.before (h2.1 _ hp)), h2.2 _ hp hsm]

theorem positionAll_mem {segs : List (Option Seg)} : ∀ {n : Int} {s : Seg}, some s ∈ (positionAll n segs).1 →
    ∃ s0 k, some s0 ∈ segs ∧ s = s0.setPosition k := by
  induction segs with
  | nil => intro n s h; simp [positionAll] at h
  | cons a segs ih =>
    intro n s h
    unfold positionAll at h
    simp only [List.mem_cons] at h
    rcases h with h | h
    · cases a with
      | none => simp [positionOpt] at h
      | some a => simp only [positionOpt, Option.some.injEq] at h; exact ⟨a, n + 1, by simp, h⟩
    · obtain ⟨s0, k, h1, h2⟩ := ih h
      exact ⟨s0, k, by simp [h1], h2⟩

/-- The bytes of ordinary contents. -/
theorem ordinary_bytes {segs : List (Option Seg)} (ho : ∀ s, some s ∈ segs → c!"HK" <+: s.header.id ∧ WordySeg s) {m : BasicMessage} {n : Int}
    (hm : m.content = some (positionAll n segs).1) {l : List Bytes} (hl : ((m.content.getD []).filterMap id).map Seg.marshal = l.map .ok) :
    ∀ c ∈ l, JobBytes c := by
  intro c hc
  have : Outcome.ok c ∈ ((m.content.getD []).filterMap id).map Seg.marshal := by rw [hl]; exact List.mem_map.2 ⟨c, hc, rfl⟩
  obtain ⟨s, h1, h2⟩ := List.mem_map.1 this
  rw [hm] at h1
  simp only [Option.getD_some, List.mem_filterMap, id, exists_eq_right] at h1
  obtain ⟨s0, k, h3, rfl⟩ := positionAll_mem h1
  exact ⟨s0.setPosition k, (ho s0 h3).1, (ho s0 h3).2, h2⟩

theorem same_requestEncrypted (w : World BankSeg α) (hw : w.decoders = decoders) (k : Kind) (m : BasicMessage) {s : St BankSeg α}
    (h : ∀ x m' b, m.encrypt s.d.crypto (w.env s.step).encryptTime = .ok x → x.msg.marshal = .ok (b, m') → b.length ≤ 2 ^ 48 →
      receive decoders (.ok (b, true)) ≠ .panic) (hs : Small (requestEncrypted (unlogged w) k m s).2) :
    requestEncrypted (logged w) k m s = requestEncrypted (unlogged w) k m s := by
  unfold requestEncrypted at *
  show (match m.encrypt s.d.crypto (w.env s.step).encryptTime with
    | .ok e => request (logged w) k m e.msg s
    | .err => (.err, s)
    | .panic => (.panic, s)) = (match m.encrypt s.d.crypto (w.env s.step).encryptTime with
    | .ok e => request (unlogged w) k m e.msg s
    | .err => (.err, s)
    | .panic => (.panic, s))
  cases h1 : m.encrypt s.d.crypto (w.env s.step).encryptTime with
  | err => rfl
  | panic => rfl
  | ok x =>
    simp only
    have hs : Small (request (unlogged w) k m x.msg s).2 := by
      have e : m.encrypt s.d.crypto ((unlogged w).env s.step).encryptTime = .ok x := h1
      rw [e] at hs
      exact hs
    unfold request at *
    cases h2 : x.msg.marshal with
    | err => rfl
    | panic => rfl
    | ok r =>
      simp only
      rw [h2] at hs
      simp only at hs
      have hb := h x r.2 r.1 h1 h2 (hs ⟨k, m, x.msg, r.1, _⟩ (List.mem_append_right _ (List.mem_singleton.2 rfl)))
      have : receive (logged w).decoders (((logged w).env s.step).transport r.1) =
          receive (unlogged w).decoders (((unlogged w).env s.step).transport r.1) := by
        show receive w.decoders (logging w.decoders (w.env s.step).transport r.1) = receive w.decoders _
        rw [hw] at *
        exact C97_answer decoders _ hb
      rw [this]

theorem same_exchange (w : World BankSeg α) (hw : w.decoders = decoders) (k : Kind) {segs : List (Option Seg)} (v : Version)
    (ho : ∀ s, some s ∈ segs → c!"HK" <+: s.header.id ∧ WordySeg s) :
    Same (Delivered (unlogged w)) (exchange (unlogged w) k segs v) (exchange (logged w) k segs v) := by
  refine ⟨handing_exchange _ k segs v, fun s hs hsm => ?_⟩
  unfold exchange M.bind at *
  have e : sign (logged w) = sign (unlogged w) := rfl
  rw [e]
  simp only [newMessage_ok] at *
  unfold sign at *
  cases hm : BasicMessage.sign _ s.d.sig ((unlogged w).env (s.step + 1)).signTime with
  | err => rfl
  | panic => rfl
  | ok m =>
    simp only [hm] at hsm ⊢
    refine same_requestEncrypted w hw k m ?_ hsm
    intro x m' b h1 h2 hl
    obtain ⟨hpin, b0, b1, hk, ha, b3, l4, g0, g1, k3, k4, k2, g3, hb, hh, hc⟩ := pieces_of hs hm h1 h2
    rw [hb] at hl ⊢
    exact secured_safe (by rw [hh]; rfl) hpin g0 g1 k3 (ordinary_bytes ho hc k4) k2 rfl g3 hl

theorem same_syncRequest (w : World BankSeg α) (hw : w.decoders = decoders)
    (ho : ∀ d : Dialog BankSeg α, ∀ s, some s ∈ syncSegments d → c!"HK" <+: s.header.id ∧ WordySeg s) :
    Same (Delivered (unlogged w)) (syncRequest (unlogged w)) (syncRequest (logged w)) := by
  refine ⟨handing_syncRequest _, fun s hs hsm => ?_⟩
  unfold syncRequest M.bind at *
  have e : sign (logged w) = sign (unlogged w) := rfl
  rw [e]
  simp only [newMessage_ok] at *
  unfold sign at *
  cases hm : BasicMessage.sign _ s.d.sig ((unlogged w).env (s.step + 1)).signTime with
  | err => rfl
  | panic => rfl
  | ok m =>
    simp only [hm, M.modify] at hsm ⊢
    refine same_requestEncrypted w hw .sync m ?_ hsm
    intro x m' b h1 h2 hl
    obtain ⟨hpin, b0, b1, hk, ha, b3, l4, g0, g1, k3, k4, k2, g3, hb, hh, hc⟩ := pieces_of (by exact hs) hm h1 h2
    rw [hb] at hl ⊢
    exact secured_safe (by rw [hh]; rfl) hpin g0 g1 k3 (ordinary_bytes (ho s.d) hc k4) k2 rfl g3 hl

theorem same_exchangePlain (w : World BankSeg α) (hw : w.decoders = decoders) (k : Kind) {segs : List (Option Seg)} (v : Version)
    (ho : ∀ s, some s ∈ segs → c!"HK" <+: s.header.id ∧ WordySeg s) :
    Same (fun _ => Open (unlogged w)) (exchangePlain (unlogged w) k segs v) (exchangePlain (logged w) k segs v) := by
  refine ⟨handing_exchangePlain _ k segs v, fun s hs hsm => ?_⟩
  unfold exchangePlain M.bind at *
  simp only [newMessage_ok, M.lift] at *
  cases hm : BasicMessage.setPositions _ with
  | err => rfl
  | panic => rfl
  | ok m =>
    simp only [hm] at hsm ⊢
    unfold request at *
    cases h2 : m.marshal with
    | err => rfl
    | panic => rfl
    | ok r =>
      simp only [h2] at hsm ⊢
      have hl := hsm ⟨k, m, m, r.1, _⟩ (List.mem_append_right _ (List.mem_singleton.2 rfl))
      obtain ⟨first, last, l4, k3, k4, k2, hb, hh, hc⟩ := plain_pieces hm h2
      have hsafe : receive decoders (.ok (r.1, true)) ≠ .panic := by
        simp only at hl
        rw [hb] at hl ⊢
        exact open_safe (by rw [hh]; rfl) k3 (ordinary_bytes ho hc k4) k2 (lt_of_le_of_lt hl (by decide))
      have : receive (logged w).decoders (((logged w).env (s.step + 1)).transport r.1) =
          receive (unlogged w).decoders (((unlogged w).env (s.step + 1)).transport r.1) := by
        show receive w.decoders (logging w.decoders (w.env (s.step + 1)).transport r.1) = receive w.decoders _
        rw [hw]
        exact C97_answer decoders _ hsafe
      rw [this]

/-! ## The messages of the dialog itself -/

theorem wordy_bank (c : Int) (i : Str) : Wordy (bankIdentification c i) := wordy_group (by simp [Wordy.countryCode, Wordy.alnum])

theorem ordinary_list {l : List (Option Seg)} (h : ∀ s ∈ l.filterMap id, c!"HK" <+: s.header.id ∧ WordySeg s) :
    ∀ s, some s ∈ l → c!"HK" <+: s.header.id ∧ WordySeg s := fun s hs => h s (by simpa using hs)

theorem ordinary_identification (b : BankId) (c i : Str) (r : Bool) :
    c!"HK" <+: (identificationSeg b c i r).header.id ∧ WordySeg (identificationSeg b c i r) :=
  ⟨⟨c!"IDN", rfl⟩, wordySeg_of (by simp [identificationSeg, newSegment, wordy_bank, Wordy.identification, Wordy.number])⟩

theorem ordinary_preparation (a b c : Int) (n v : Str) :
    c!"HK" <+: (preparationSeg a b c n v).header.id ∧ WordySeg (preparationSeg a b c n v) :=
  ⟨⟨c!"VVB", rfl⟩, wordySeg_of (by simp [preparationSeg, newSegment, Wordy.alnum, Wordy.number])⟩

theorem ordinary_tan6 (r : Str) : c!"HK" <+: (tanRequestV6 r).header.id ∧ WordySeg (tanRequestV6 r) :=
  ⟨⟨c!"TAN", rfl⟩, wordySeg_of (by simp [tanRequestV6, newSegment, Wordy.alnum])⟩

theorem ordinary_synchronisation (v : Version) : c!"HK" <+: (synchronisationSeg v).header.id ∧ WordySeg (synchronisationSeg v) := by
  cases v
  · exact ⟨⟨c!"SYN", rfl⟩, wordySeg_of (by simp [synchronisationSeg, newSegment, Wordy.number])⟩
  · exact ⟨⟨c!"SYN", rfl⟩, wordySeg_of (by simp [synchronisationSeg, newSegment, Wordy.code])⟩

theorem ordinary_end (i : Str) : ∀ s, some s ∈ [some (dialogEndSeg i)] → c!"HK" <+: s.header.id ∧ WordySeg s :=
  ordinary_list (by
    simp only [List.filterMap_cons, id, List.filterMap_nil, List.mem_singleton, forall_eq]
    exact ⟨⟨c!"END", rfl⟩, wordySeg_of (by simp [dialogEndSeg, newSegment, Wordy.identification])⟩)

theorem ordinary_sync (d : Dialog BankSeg α) : ∀ s, some s ∈ syncSegments d → c!"HK" <+: s.header.id ∧ WordySeg s :=
  ordinary_list (by
    simp only [syncSegments, List.filterMap_cons, id, List.filterMap_nil, List.mem_cons, List.not_mem_nil, or_false]
    rintro s (rfl | rfl | rfl | rfl)
    exacts [ordinary_identification _ _ _ _, ordinary_preparation _ _ _ _ _, ordinary_tan6 _, ordinary_synchronisation _])

theorem ordinary_init (d : Dialog BankSeg α) : ∀ s, some s ∈ initSegments d → c!"HK" <+: s.header.id ∧ WordySeg s :=
  ordinary_list (by
    simp only [initSegments, List.filterMap_cons, id, List.filterMap_nil, List.mem_cons, List.not_mem_nil, or_false]
    rintro s (rfl | rfl | rfl)
    exacts [ordinary_identification _ _ _ _, ordinary_preparation _ _ _ _ _, ordinary_tan6 _])

theorem ordinary_anonymous (d : Dialog BankSeg α) : ∀ s, some s ∈ anonymousSegments d → c!"HK" <+: s.header.id ∧ WordySeg s :=
  ordinary_list (by
    simp only [anonymousSegments, List.filterMap_cons, id, List.filterMap_nil, List.mem_cons, List.not_mem_nil, or_false]
    rintro s (rfl | rfl)
    exacts [ordinary_identification _ _ _ _, ordinary_preparation _ _ _ _ _])

/-! ## Calls -/

/-- A program that looks at the state first. -/
theorem Same.state {β : Type} {m m' : St BankSeg α → M BankSeg α β} (h : ∀ s, Same P (m s) (m' s)) :
    Same P (fun s => m s s) (fun s => m' s s) := ⟨fun s hs => (h s).1 s hs, fun s hs hsm => (h s).2 s hs hsm⟩

theorem parseAccounts_logged (w : World BankSeg α) : ∀ xs, parseAccounts (logged w) xs = parseAccounts (unlogged w) xs
  | [] => rfl
  | x :: xs => by
    unfold parseAccounts
    rw [parseAccounts_logged w xs]
    rfl

theorem parseUPD_logged (w : World BankSeg α) (m : Decrypted BankSeg) :
    parseUserParameterData (logged w) m = parseUserParameterData (unlogged w) m := by
  unfold parseUserParameterData
  rw [parseAccounts_logged]
  rfl

theorem opened_logged (w : World BankSeg α) (m : Decrypted BankSeg) : opened (logged w) m = opened (unlogged w) m := by
  unfold opened
  rw [parseUPD_logged]
  rfl

theorem anonymousOpened_logged (w : World BankSeg α) (m : Decrypted BankSeg) :
    anonymousOpened (logged w) m = anonymousOpened (unlogged w) m := by
  unfold anonymousOpened
  rw [parseUPD_logged]
  rfl

section
variable (w : World BankSeg α) (hw : w.decoders = decoders)
include hw

theorem same_end : Same (Delivered (unlogged w)) (end_ (unlogged w)) (end_ (logged w)) :=
  .state (m := fun s => (exchange (unlogged w) .end_ [some (dialogEndSeg s.d.dialogId)] s.d.version).bind fun m => M.lift (checkAcks m))
    (m' := fun s => (exchange (logged w) .end_ [some (dialogEndSeg s.d.dialogId)] s.d.version).bind fun m => M.lift (checkAcks m))
    fun s => (same_exchange w hw .end_ s.d.version (ordinary_end _)).bind fun _ => .of_eq (.lift _)

theorem same_anonymousEnd : Same (fun _ => Open (unlogged w)) (anonymousEnd (unlogged w)) (anonymousEnd (logged w)) :=
  .state (m := fun s => (exchangePlain (unlogged w) .end_ [some (dialogEndSeg s.d.dialogId)] s.d.version).bind fun m => M.lift (checkAcks m))
    (m' := fun s => (exchangePlain (logged w) .end_ [some (dialogEndSeg s.d.dialogId)] s.d.version).bind fun m => M.lift (checkAcks m))
    fun s => (same_exchangePlain w hw .end_ s.d.version (ordinary_end _)).bind fun _ => .of_eq (.lift _)

theorem same_sync : Same (Delivered (unlogged w)) (syncClientSystemId (unlogged w)) (syncClientSystemId (logged w)) := by
  refine (same_syncRequest w hw ordinary_sync).bind fun m => (Same.of_eq (.of_outer (takeDialogId_outer m))).bind fun _ =>
    (Same.of_eq (.lift _)).bind fun _ => (Same.of_eq (.of_outer (updateSecurityFunction_outer (unlogged w) m))).bind fun _ => .bind (.of_eq ?_) fun _ =>
      (Same.of_eq (.of_core (parseBank_core (unlogged w) m))).bind fun _ => (Same.of_eqs (.of_core (parseUPD_core (unlogged w) m)) (parseUPD_logged w m)).bind fun _ =>
        (same_end w hw).bind fun _ => .of_eq ?_
  · unfold takeClientSystemId
    split
    · exact .lift _
    · exact (Handing.lift _).bind fun id => .modify fun d => ⟨rfl, rfl⟩
  · intro s _; exact .refl s

theorem same_open : Same (Delivered (unlogged w)) (open_ (unlogged w)) (open_ (logged w)) := by
  refine (Same.of_eq (.modify (f := fun d => { d with dialogId := c!"0", messageCount := 0 }) fun d => ⟨rfl, rfl⟩)).bind fun _ => ?_
  exact .state (m := fun s => (exchange (unlogged w) .init (initSegments s.d) s.d.version).bind fun m => opened (unlogged w) m)
    (m' := fun s => (exchange (logged w) .init (initSegments s.d) s.d.version).bind fun m => opened (logged w) m)
    fun s => (same_exchange w hw .init s.d.version (ordinary_init _)).bind fun m => .of_eqs (.of_outer (opened_outer (unlogged w) m)) (opened_logged w m)

theorem same_anonymousInit : Same (fun _ => Open (unlogged w)) (anonymousInit (unlogged w)) (anonymousInit (logged w)) := by
  refine (Same.of_eq (.modify (f := fun d => { d with dialogId := c!"0", messageCount := 0 }) fun d => ⟨rfl, rfl⟩)).bind fun _ => ?_
  exact .state (m := fun s => (exchangePlain (unlogged w) .init (anonymousSegments s.d) s.d.version).bind fun m => anonymousOpened (unlogged w) m)
    (m' := fun s => (exchangePlain (logged w) .init (anonymousSegments s.d) s.d.version).bind fun m => anonymousOpened (logged w) m)
    fun s => (same_exchangePlain w hw .init s.d.version (ordinary_anonymous _)).bind fun m => .of_eqs (.of_outer (anonymousOpened_outer (unlogged w) m)) (anonymousOpened_logged w m)

theorem same_init : Same (Delivered (unlogged w)) (init (unlogged w)) (init (logged w)) := by
  refine Same.bind ?_ fun _ => same_open w hw
  have h : Same (Delivered (unlogged w)) ((syncClientSystemId (unlogged w)).bind fun id => M.modify fun d => { d with clientSystemId := id })
      ((syncClientSystemId (logged w)).bind fun id => M.modify fun d => { d with clientSystemId := id }) :=
    (same_sync w hw).bind fun id => .of_eq (.modify (f := fun d => { d with clientSystemId := id }) fun d => ⟨rfl, rfl⟩)
  constructor
  · intro s hs
    unfold ensureClientSystemId
    split
    · exact h.1 s hs
    · exact .refl s
  · intro s hs hsm
    unfold ensureClientSystemId at *
    split
    · rename_i hi
      rw [if_pos hi] at hsm
      exact h.2 s hs hsm
    · rfl

theorem same_send {j : Job} (hj : Ordinary j) : Same (Delivered (unlogged w)) (sendMessage (unlogged w) j) (sendMessage (logged w) j) :=
  (same_init w hw).bind fun _ => .deferred
    ((same_exchange w hw .job j.version hj).bind fun _ => .of_eq ((Handing.lift _).bind fun _ => .lift _)) (same_end w hw)

theorem same_syncUser : Same (Delivered (unlogged w)) (syncUserParameterData (unlogged w)) (syncUserParameterData (logged w)) :=
  (same_init w hw).bind fun _ => .deferred (.of_eq (.lift _)) (same_end w hw)

theorem same_sendAnonymous {j : Job} (hj : Ordinary j) :
    Same (fun _ => Open (unlogged w)) (sendAnonymousMessage (unlogged w) j) (sendAnonymousMessage (logged w) j) :=
  (same_anonymousInit w hw).bind fun _ => .deferred
    ((same_exchangePlain w hw .job j.version hj).bind fun _ => .of_eq ((Handing.lift _).bind fun _ => .lift _)) (same_anonymousEnd w hw)

/-- One call does the same, and no message disappears from the record. -/
theorem same_run {c : Call} (hc : OrdinaryCall c) {s : St BankSeg α} (hs : OnePin s.d) :
    (Small (run (unlogged w) c s).2 → Small s) ∧ (Small (run (unlogged w) c s).2 → run (logged w) c s = run (unlogged w) c s) := by
  have key : ∀ {β : Type} {P : Signer → Nat → Sent BankSeg → Prop} {m m' : M BankSeg α β}, Same P m m' →
      (Small (void (m s)).2 → Small s) ∧ (Small (void (m s)).2 → void (m' s) = void (m s)) := fun h =>
    ⟨fun hsm => Small.before (h.1 s hs) hsm, fun hsm => by rw [h.2 s hs hsm]⟩
  cases c with
  | send j => exact key (same_send w hw hc)
  | sendAnonymous j => exact key (same_sendAnonymous w hw hc)
  | sync => exact key (same_sync w hw)
  | syncUser => exact key (same_syncUser w hw)
  | setPin p => exact ⟨fun h => h, fun _ => rfl⟩

theorem same_runAll (bank : BankId) (user : Str) : ∀ {cs : List Call} {pin : Str} {s : St BankSeg α}, (∀ c ∈ cs, OrdinaryCall c) →
    Owned (unlogged w) bank user pin s.d → Small (runAll (unlogged w) cs s) →
      Small s ∧ runAll (logged w) cs s = runAll (unlogged w) cs s
  | [], _, _, _, _, h => ⟨h, rfl⟩
  | c :: cs, pin, s, hc, ho, h => by
    obtain ⟨h1, h2⟩ := same_runAll bank user (fun c hc' => hc c (by simp [hc'])) (owned_run c ho) h
    obtain ⟨h3, h4⟩ := same_run w hw (hc c (by simp)) ho.onePin
    refine ⟨h3 h1, ?_⟩
    show runAll (logged w) cs (run (logged w) c s).2 = _
    rw [h4 h1]
    exact h2

end

/-- C97: the log changes nothing.  Whatever the bank answers, and whatever a caller does with a new dialog, the
dialog with the logging middleware reaches the same state, after the same messages, as the dialog without it;
and a further call returns the same. -/
theorem C97_history (w : World BankSeg α) (hw : w.decoders = decoders) (bank : BankId) (user : Str) (v : Version) (name version : Str)
    (cs : List Call) (c : Call) (hc : ∀ x ∈ cs ++ [c], OrdinaryCall x) :
    let s := ⟨newPinTanDialog w bank user v name version, 0, []⟩
    Small (run (unlogged w) c (runAll (unlogged w) cs s)).2 →
      runAll (logged w) cs s = runAll (unlogged w) cs s ∧
      run (logged w) c (runAll (logged w) cs s) = run (unlogged w) c (runAll (unlogged w) cs s) := by
  intro s h
  have ho : Owned (unlogged w) bank user [] s.d := ⟨rfl, rfl, rfl, rfl⟩
  obtain ⟨h3, h4⟩ := same_run w hw (hc c (by simp)) (owned_runAll cs [] ho).onePin
  obtain ⟨_, h2⟩ := same_runAll w hw bank user (fun x hx => hc x (by simp [hx])) ho (h3 h)
  rw [h2]
  exact ⟨rfl, h4 h⟩

/-! ## The jobs there are -/

theorem wordy_account (c : AccountConnection) : Wordy (accountConnectionDE c) :=
  wordy_group (by simp [Wordy.identification, Wordy.countryCode, Wordy.alnum])

theorem wordy_international (c : InternationalConnection) : Wordy (internationalDE c) :=
  wordy_group (by simp [Wordy.identification, wordy_bank, Wordy.alnum])

/-- C97: every job the client makes is of the kind `C97_history` speaks of: balances, transactions, status, TAN. -/
theorem C97_jobs (v : Version) (version n : Int) (account : AccountConnection) (sepa : InternationalConnection) (all : Bool) (mark : Str)
    (now start stop : Time.Civil) (tf : Domain.Timeframe) (ref : Str) :
    ∀ s ∈ [(newBalanceRequest version account all).seg, (newSepaBalanceRequest version sepa all).seg,
      ((newBalanceRequest version account all).setContinuationMark mark).seg,
      ((newSepaBalanceRequest version sepa all).setContinuationMark mark).seg,
      ((newTransactionRequest version account all).setTransactionRange now tf).seg,
      ((newSepaTransactionRequest version sepa all).setTransactionRange now tf).seg,
      (((newTransactionRequest version account all).setTransactionRange now tf).setContinuationReference mark).seg,
      (((newSepaTransactionRequest version sepa all).setTransactionRange now tf).setContinuationReference mark).seg,
      newStatusRequest version start stop n mark, tanRequestV1 ref, tanRequestV6 ref],
      OrdinaryCall (.send ⟨[some s], v⟩) := by
  have key : ∀ s : Seg, c!"HK" <+: s.header.id → (∀ e ∈ s.elements.filterMap id, Wordy e) → OrdinaryCall (.send ⟨[some s], v⟩) := by
    intro s h1 h2 s' hs
    simp only [List.mem_singleton, Option.some.injEq] at hs
    subst hs
    exact ⟨h1, wordySeg_of h2⟩
  intro s hs
  simp only [List.mem_cons, List.not_mem_nil, or_false] at hs
  rcases hs with rfl | rfl | rfl | rfl | rfl | rfl | rfl | rfl | rfl | rfl | rfl <;> refine key _ ?_ ?_
  all_goals first
    | exact ⟨c!"SAL", rfl⟩
    | exact ⟨c!"KAZ", rfl⟩
    | exact ⟨c!"PRO", rfl⟩
    | exact ⟨c!"TAN", rfl⟩
    | skip
  all_goals
    simp [BalanceRequest.seg, newBalanceRequest, newSepaBalanceRequest, BalanceRequest.setContinuationMark, TransactionRequest.seg,
      newTransactionRequest, newSepaTransactionRequest, TransactionRequest.setTransactionRange, TransactionRequest.setContinuationReference,
      newStatusRequest, tanRequestV1, tanRequestV6, newSegment, wordy_account, wordy_international, Wordy.boolean, Wordy.alnum,
      Wordy.date, Wordy.number]

/-! ## The PIN in the log -/

theorem split_ne_nil (c : Byte) : ∀ b, split c b ≠ []
  | [] => by simp [split]
  | x :: b => by
    unfold split
    split
    · simp
    · split <;> simp

theorem split_tail {c : Byte} {x : Bytes} (hx : c ∉ x) (z : Bytes) : ∀ a : Bytes, ∃ l ∈ split c (a ++ x ++ c :: z), x <:+ l
  | [] => by
    refine ⟨x, ?_, List.suffix_rfl⟩
    induction x with
    | nil => simp [split]
    | cons y x ih =>
      simp only [List.mem_cons, not_or] at hx
      have h1 : ∃ ps, split c ([] ++ x ++ c :: z) = x :: ps := by
        clear ih
        have := hx.2
        clear hx
        induction x with
        | nil => exact ⟨split c z, by simp [split]⟩
        | cons y x ih =>
          simp only [List.mem_cons, not_or] at this
          obtain ⟨ps, h⟩ := ih this.2
          refine ⟨ps, ?_⟩
          have e : [] ++ y :: x ++ c :: z = y :: ([] ++ x ++ c :: z) := by simp
          rw [e, split, h]
          have : (y == c) = false := by simpa using Ne.symm this.1
          simp [this]
      obtain ⟨ps, h⟩ := h1
      have e : [] ++ y :: x ++ c :: z = y :: ([] ++ x ++ c :: z) := by simp
      rw [e, split, h]
      have : (y == c) = false := by simpa using Ne.symm hx.1
      simp [this]
  | y :: a => by
    obtain ⟨l, h1, h2⟩ := split_tail hx z a
    have e : y :: a ++ x ++ c :: z = y :: (a ++ x ++ c :: z) := by simp
    rw [e, split]
    split
    · exact ⟨l, List.mem_cons_of_mem _ h1, h2⟩
    · split
      · rename_i h; exact absurd h (split_ne_nil c _)
      · rename_i q ps h
        rw [h] at h1
        rcases List.mem_cons.1 h1 with rfl | h1
        · exact ⟨y :: l, by simp, h2.trans (List.suffix_cons y l)⟩
        · exact ⟨l, by simp [h1], h2⟩

/-- C97: in debug mode the log shows the PIN.  Whatever was done before with a new dialog, for every message of a
secured call a line is written that ends in the PIN set last, as it is transmitted, if the PIN has no `'`. -/
theorem C97_pin {σ : Type} (w : World σ α) (bank : BankId) (user : Str) (v : Version) (name version : Str) (cs : List Call) (c : Call)
    (hc : ∀ j, c ≠ .sendAnonymous j) (hq : (39 : Byte) ∉ pinBytes (lastPin [] cs)) :
    let s := runAll w cs ⟨newPinTanDialog w bank user v name version, 0, []⟩
    ∀ e ∈ (run w c s).2.sent.drop s.sent.length,
      (∃ line ∈ requestLines true e.bytes, b!"++" ++ pinBytes (lastPin [] cs) <:+ line) ∧ requestLines false e.bytes = [] := by
  intro s e he
  obtain ⟨E, ns, h1, h2, -⟩ := C96_secured w bank user v name version cs c hc
  rw [h1, List.drop_left] at he
  obtain ⟨n, -, h3⟩ : ∃ n ∈ ns, Delivered w ⟨lastPin [] cs, w.controlRef ⟨bank.country, bank.id, user, c!"S", 0, 0⟩,
      ⟨bank.country, bank.id, user, c!"S", 0, 0⟩⟩ n e := by
    clear h1
    induction h2 with
    | nil => simp at he
    | cons h h' ih =>
      rcases List.mem_cons.1 he with rfl | he
      · exact ⟨_, by simp, h⟩
      · obtain ⟨n, hn, hd⟩ := ih he
        exact ⟨n, by simp [hn], hd⟩
  obtain ⟨p, h4, _⟩ := h3.bytes
  obtain ⟨a, ha⟩ := p.place ⟨lastPin [] cs, w.controlRef ⟨bank.country, bank.id, user, c!"S", 0, 0⟩, ⟨bank.country, bank.id, user, c!"S", 0, 0⟩⟩
  refine ⟨?_, rfl⟩
  rw [h4, ha]
  have hx : (39 : Byte) ∉ b!"++" ++ pinBytes (lastPin [] cs) := by
    rw [List.mem_append, not_or]
    exact ⟨by decide, hq⟩
  obtain ⟨l, h5, h6⟩ := split_tail hx (39 :: p.last) a
  refine ⟨l, ?_, h6⟩
  show l ∈ split 39 _
  have e : a ++ b!"++" ++ pinBytes (lastPin [] cs) ++ b!"''" ++ p.last = a ++ (b!"++" ++ pinBytes (lastPin [] cs)) ++ 39 :: 39 :: p.last := by
    simp
  rw [e]
  exact h5

/-! ## Samples -/

namespace Sample

/-- A bank that has this to say to everyone. -/
def terse : World BankSeg AccountInformation :=
  { world with env := fun n => ⟨fun _ => .ok (b!"HNHBK:1:3+000000000110+300+dia1+1+dia1:1'HIRMG:2:2+0010::ok'HNHBS:3:1+1'", true),
      ⟨2020, 1, 2, 3, 4, 5, 0⟩, ⟨2020, 1, 2, 3, 4, 5, 0⟩, n⟩ }

/-- Somebody asks for a balance, then for a client system ID. -/
def calls : List Call :=
  [.setPin c!"geheim", .sendAnonymous ⟨[some (newBalanceRequest 5 ⟨c!"1234", [], 280, c!"10000000"⟩ false).seg], .fints300⟩]

def start : St BankSeg AccountInformation := ⟨newPinTanDialog terse ⟨280, c!"10000000"⟩ c!"user" .fints300 [] [], 0, []⟩

set_option maxRecDepth 20000 in
theorem lengths : ((run (unlogged terse) .sync (runAll (unlogged terse) calls start)).2.sent.map fun e => e.bytes.length) = [129, 77, 61, 387] := by
  decide +kernel

theorem calls_ordinary : ∀ x ∈ calls ++ [.sync], OrdinaryCall x := by
  intro x hx
  simp only [calls, List.mem_cons, List.not_mem_nil, or_false, List.cons_append, List.nil_append] at hx
  rcases hx with rfl | rfl | rfl
  · trivial
  · exact C97_jobs .fints300 5 0 ⟨c!"1234", [], 280, c!"10000000"⟩ ⟨[], [], [], [], 0, []⟩ false [] ⟨0, 1, 1, 0, 0, 0, 0⟩ ⟨0, 1, 1, 0, 0, 0, 0⟩
      ⟨0, 1, 1, 0, 0, 0, 0⟩ ⟨⟨0, 1, 1, 0, 0, 0, 0⟩, ⟨0, 1, 1, 0, 0, 0, 0⟩⟩ [] _ (List.mem_cons_self ..)
  · trivial

theorem small : Small (run (unlogged terse) .sync (runAll (unlogged terse) calls start)).2 := by
  intro e he
  have := List.mem_map_of_mem (f := fun e : Sent BankSeg => e.bytes.length) he
  rw [lengths] at this
  simp only [List.mem_cons, List.not_mem_nil, or_false] at this
  rcases this with h | h | h | h <;> rw [h] <;> decide

set_option maxRecDepth 20000 in
/-- What `request` writes about the last message. -/
theorem lines : ((run (unlogged terse) .sync (runAll (unlogged terse) calls start)).2.sent.getLast?.map
    fun e => (requestLines true e.bytes).drop 7) = some [b!"HNSHA:7:2+1234++geheim", [], b!"HNHBS:8:1+4", []] := by
  decide +kernel

end Sample

example : ((run (logged Sample.terse) .sync (runAll (logged Sample.terse) Sample.calls Sample.start)).2.sent.map fun e => e.bytes.length) =
    [129, 77, 61, 387] := by
  have h := C97_history Sample.terse rfl ⟨280, c!"10000000"⟩ c!"user" .fints300 [] [] Sample.calls .sync Sample.calls_ordinary Sample.small
  have e : run (logged Sample.terse) .sync (runAll (logged Sample.terse) Sample.calls Sample.start) =
    run (unlogged Sample.terse) .sync (runAll (unlogged Sample.terse) Sample.calls Sample.start) := h.2
  rw [e]
  exact Sample.lengths

example : (39 : Byte) ∉ pinBytes (lastPin [] Sample.calls) ∧ pinBytes (lastPin [] Sample.calls) = b!"geheim" := by decide +kernel

set_option maxRecDepth 20000 in
/-- A request that could not be read, if somebody sent it. -/
example : (receive decoders (.ok (b!"HNHBK:1:3+000000000110+300+dia1+1'HIRMG:2:2+0010::ok'HIKPV:5:1:4+1:2'HNHBS:3:1+1'", true))).map' (fun _ => ()) = .panic ∧
    (receive decoders (.ok (b!"HNHBK:1:3+000000000110+300+dia1+1'HIRMG:2:2+0010::ok'HIKPV:5:1:4'HNHBS:3:1+1'", true))).map' (fun _ => ()) = .ok () := by
  decide +kernel

end Verif.Bank

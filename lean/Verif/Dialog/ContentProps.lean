import Verif.Dialog.StateProps
import Verif.Dialog.Sample

/-
C85: what the messages of a dialog say, and where it comes from: for every bank, transport,
clock and history of calls, the log of the messages sent determines what the next one says.
-/

namespace Verif.Dialog

open GoLib Element Element.Spec Segment Message Domain Transport

variable {σ α : Type}

/-! ## Specification -/

/-- A segment as it is written: ID, version, and the bytes of its fields. -/
abbrev Saying := Str × Int × List (Outcome Bytes)

/-- A segment as it is written, apart from its position. -/
def saying (x : Seg) : Saying := (x.header.id, x.header.version, x.elements.map DE.marshalOpt)

/-- The segments as they are written; nil segments are not. -/
def sayings (segs : List (Option Seg)) : List Saying := (segs.filterMap id).map saying

/-- What a message says between signature header and signature. -/
def spoken (e : Sent σ) : List Saying := sayings (e.plain.content.getD [])

/-- What never changes in a dialog. -/
structure Facts where
  bank : BankId
  language : Int
  version : Version
  productName : Str
  productVersion : Str

/-- The facts of a dialog. -/
def facts (d : Dialog σ α) : Facts := ⟨d.bankId, d.language, d.version, d.productName, d.productVersion⟩

/-- What the bank tells and the messages repeat. -/
structure Knowledge where
  clientId : Str
  systemId : Str
  bank : BankParameters
  user : UserParameters

/-- The knowledge of a dialog. -/
def knows (d : Dialog σ α) : Knowledge := ⟨d.clientId, d.clientSystemId, d.bankParameterData.parameters, d.userParameters⟩

/-- Identification: bank, client, client system, and whether a client system ID is needed. -/
def identifies (bank : BankId) (client system : Str) (status : Bytes) : Saying :=
  (c!"HKIDN", 2, [(marshalText bank.id).map' fun b => trimRight 58 (zeroPad 3 bank.country ++ b!":" ++ b),
    marshalText client, marshalText system, .ok status])

/-- Preparation: versions of the parameters the client has, language, and product. -/
def prepares (bank user language : Int) (f : Facts) : Saying :=
  (c!"HKVVB", 3, [.ok (itoa bank), .ok (itoa user), .ok (itoa language),
    marshalText (if f.productName = [] then c!"5A624F86A785F4024DD914404" else f.productName),
    marshalText (if f.productVersion = [] then c!"0.3.2" else f.productVersion)])

/-- Strong authentication of the segment HKIDN. -/
def authenticates : Saying := (c!"HKTAN", 6, [.ok b!"4", .ok b!"HKIDN", .ok [], .ok [], .ok [], .ok [], .ok []])

/-- A new client system ID is wanted. -/
def synchronises : Version → Saying
  | .hbci220 => (c!"HKSYN", 2, [.ok b!"0"])
  | .fints300 => (c!"HKSYN", 3, [.ok b!"0"])

/-- The dialog is over. -/
def ends (dialogId : Str) : Saying := (c!"HKEND", 1, [marshalText dialogId])

/-- What a message says, by its kind and the call that sends it. -/
def Contents (c : Call) (f : Facts) (k : Knowledge) (e : Sent σ) : Prop :=
  match e.kind with
  | .sync => spoken e = [identifies f.bank k.clientId c!"0" b!"1", prepares 0 0 1 f, authenticates, synchronises f.version]
  | .init =>
    match c with
    | .sendAnonymous _ => spoken e = [identifies f.bank c!"9999999999" c!"0" b!"0", prepares k.bank.version k.user.version f.language f]
    | _ => spoken e = [identifies f.bank k.clientId k.systemId b!"1", prepares k.bank.version k.user.version f.language f,
        authenticates]
  | .job => ∃ j ∈ c.job, spoken e = sayings j.segments
  | .end_ => spoken e = [ends (dialogOf e)]

/-- The bank parameters in an answer, if the list of supported segments can be read. -/
def bankIn (w : World σ α) (m : Decrypted σ) : Option BankParameters :=
  match find m c!"HIBPA", m.supportedSegments with
  | some b, .ok _ =>
    match viewOf w.views.bankParameters b with
    | .ok p => some p
    | _ => none
  | _, _ => none

/-- The user parameters in an answer, if the bank parameters can be read. -/
def userIn (w : World σ α) (m : Decrypted σ) : Option UserParameters :=
  match find m c!"HIUPA", bankReadable w m with
  | some u, .ok _ =>
    match viewOf w.views.userParameters u with
    | .ok p => some p
    | _ => none
  | _, _ => none

/-- The parameters in an answer replace those known; the user ID replaces the client ID. -/
def Knowledge.update (w : World σ α) (k : Knowledge) (m : Decrypted σ) : Knowledge :=
  { k with bank := (bankIn w m).getD k.bank, user := (userIn w m).getD k.user
           clientId := ((userIn w m).map (·.userId)).getD k.clientId }

/-- What is learned from the answer to a message. -/
def learn (w : World σ α) (k : Knowledge) (e : Sent σ) : Knowledge :=
  match e.kind, e.reply with
  | .init, .ok m => if m.header.dialogId = none then k else k.update w m
  | .sync, .ok m =>
    match (assignable w m).bind fun _ => assignedId w m with
    | .ok id => { k with systemId := id }.update w m
    | _ => k
  | _, _ => k

/-! ## Reading the parameters -/

theorem parseAccounts_knows (w : World σ α) (xs : List (Decoded σ)) :
    Keeps (fun s => (facts s.d, knows s.d)) (parseAccounts w xs) := by
  induction xs with
  | nil => exact .lift _
  | cons x xs ih => exact .bind (.lift _) fun _ => .bind (.modify fun _ => rfl) fun _ => ih

theorem parseBank_knows (w : World σ α) (m : Decrypted σ) (s : St σ α) :
    facts (parseBankParameterData w m s).2.d = facts s.d ∧
    knows (parseBankParameterData w m s).2.d = { knows s.d with bank := (bankIn w m).getD (knows s.d).bank } := by
  unfold parseBankParameterData bankIn
  cases find m c!"HIBPA" with
  | none => exact ⟨rfl, rfl⟩
  | some b =>
    simp only [M.bind, M.lift, M.modify]
    cases m.supportedSegments with
    | err => exact ⟨rfl, rfl⟩
    | panic => exact ⟨rfl, rfl⟩
    | ok ss =>
      simp only
      cases viewOf w.views.bankParameters b with
      | err => exact ⟨rfl, rfl⟩
      | panic => exact ⟨rfl, rfl⟩
      | ok p =>
        simp only [Option.getD_some]
        unfold parsePinTan
        cases find m c!"HIPINS" with
        | none => exact ⟨rfl, rfl⟩
        | some q =>
          simp only [M.bind, M.lift, M.modify]
          cases viewOf w.views.pinTan q <;> exact ⟨rfl, rfl⟩

theorem parseBoth_knows (w : World σ α) (m : Decrypted σ) (s : St σ α) :
    facts (parseBoth w m s).2.d = facts s.d ∧ knows (parseBoth w m s).2.d = (knows s.d).update w m := by
  obtain ⟨h1, h2⟩ := parseBank_knows w m s
  have h3 := parseBank_result w m s
  unfold parseBoth Knowledge.update userIn M.bind
  rcases hb : parseBankParameterData w m s with ⟨r, t⟩
  rw [hb] at h1 h2 h3
  simp only at h1 h2 h3
  rw [← h3]
  cases r with
  | err => cases find m c!"HIUPA" <;> exact ⟨h1, h2⟩
  | panic => cases find m c!"HIUPA" <;> exact ⟨h1, h2⟩
  | ok _ =>
    simp only
    unfold parseUserParameterData parseUser
    have key : ∀ t' : St σ α, facts (parseAccounts w (m.segments c!"HIUPD") t').2.d = facts t'.d ∧
        knows (parseAccounts w (m.segments c!"HIUPD") t').2.d = knows t'.d := by
      intro t'
      have := parseAccounts_knows w (m.segments c!"HIUPD") t'
      simpa using this
    cases find m c!"HIUPA" with
    | none =>
      simp only [M.bind, M.lift]
      rw [(key t).1, (key t).2]
      exact ⟨h1, h2⟩
    | some u =>
      simp only [M.bind, M.lift, M.modify]
      cases viewOf w.views.userParameters u with
      | err => exact ⟨h1, h2⟩
      | panic => exact ⟨h1, h2⟩
      | ok p =>
        simp only
        rw [(key _).1, (key _).2]
        refine ⟨h1, ?_⟩
        have := congrArg Knowledge.bank h2
        have h4 := congrArg Knowledge.systemId h2
        simp only [knows] at this h4 ⊢
        rw [this, h4]
        rfl

theorem takeDialogId_knows (m : Decrypted σ) : Keeps (α := α) (fun s => (facts s.d, knows s.d)) (takeDialogId m) := by
  intro s
  unfold takeDialogId
  cases m.header.dialogId <;> rfl

theorem updateSecurityFunction_knows (w : World σ α) (m : Decrypted σ) :
    Keeps (fun s => (facts s.d, knows s.d)) (updateSecurityFunction w m) := by
  intro s
  rcases updateSecurityFunction_spec w m s with h | ⟨fn, _, _, _, h⟩ <;> rw [h]
  rfl

/-- A reader: it sends nothing, and what it learns is given by `l`. -/
structure Reads (g : M σ α Unit) (l : Knowledge → Knowledge) : Prop where
  sent : ∀ s, (g s).2.sent = s.sent
  facts : ∀ s, facts (g s).2.d = facts s.d
  knows : ∀ s, knows (g s).2.d = l (knows s.d)

theorem opening_reads (w : World σ α) (m : Decrypted σ) (g : M σ α Unit) (hs : Keeps (fun s => s.sent) g)
    (hg : Keeps (fun s => (facts s.d, knows s.d)) g) :
    Reads ((takeDialogId m).bind fun _ => (parseBoth w m).bind fun _ => g)
      (fun k => if m.header.dialogId = none then k else k.update w m) := by
  have hp : Keeps (fun s : St σ α => s.sent) (parseBoth w m) := fun s =>
    congrArg (fun x => x.1) ((parseBoth_core w m).outer_of_core s)
  have ht : Keeps (fun s : St σ α => s.sent) (takeDialogId m) := fun s => congrArg (fun x => x.1) (takeDialogId_outer m s)
  have hk : ∀ s, facts (((takeDialogId m).bind fun _ => (parseBoth w m).bind fun _ => g) s).2.d = facts s.d ∧
      knows (((takeDialogId m).bind fun _ => (parseBoth w m).bind fun _ => g) s).2.d =
        if m.header.dialogId = none then knows s.d else (knows s.d).update w m := by
    intro s
    unfold takeDialogId
    cases hd : m.header.dialogId with
    | none => simp [M.bind]
    | some i =>
      simp only [M.bind, reduceCtorEq, if_false]
      obtain ⟨h1, h2⟩ := parseBoth_knows w m { s with d := { s.d with dialogId := i } }
      rcases hb : parseBoth w m { s with d := { s.d with dialogId := i } } with ⟨r, t⟩
      rw [hb] at h1 h2
      cases r with
      | err => exact ⟨h1, h2⟩
      | panic => exact ⟨h1, h2⟩
      | ok _ =>
        have := hg t
        simp only [Prod.mk.injEq] at this
        simp only
        rw [this.1, this.2]
        exact ⟨h1, h2⟩
  exact ⟨Keeps.bind ht fun _ => Keeps.bind hp fun _ => hs, fun s => (hk s).1, fun s => (hk s).2⟩

theorem opened_reads (w : World σ α) (m : Decrypted σ) :
    Reads (opened w m) (fun k => if m.header.dialogId = none then k else k.update w m) := by
  rw [opened_eq]
  exact opening_reads w m _
    (.bind (.lift _) fun _ => .bind (.lift _) fun _ => fun s => congrArg (fun x => x.1) (updateSecurityFunction_outer w m s))
    (.bind (.lift _) fun _ => .bind (.lift _) fun _ => updateSecurityFunction_knows w m)

theorem anonymousOpened_reads (w : World σ α) (m : Decrypted σ) :
    Reads (anonymousOpened w m) (fun k => if m.header.dialogId = none then k else k.update w m) := by
  have : anonymousOpened w m = (takeDialogId m).bind fun _ => (parseBoth w m).bind fun _ =>
      (M.lift (announcement w m)).bind fun _ => M.lift (checkAcks m) := by
    unfold anonymousOpened parseBoth
    simp only [M.bind_assoc]
  rw [this]
  exact opening_reads w m _ (.bind (.lift _) fun _ => .lift _) (.bind (.lift _) fun _ => .lift _)

theorem synced_reads (w : World σ α) (m : Decrypted σ) :
    Reads (synced w m) (fun k => match (assignable w m).bind fun _ => assignedId w m with
      | .ok id => { k with systemId := id }.update w m
      | _ => k) := by
  have hc : Keeps (fun s : St σ α => (facts s.d, knows s.d)) (checked w m) :=
    .bind (takeDialogId_knows m) fun _ => .bind (.lift _) fun _ => updateSecurityFunction_knows w m
  have hk : ∀ s, facts (synced w m s).2.d = facts s.d ∧ knows (synced w m s).2.d =
      match (assignable w m).bind fun _ => assignedId w m with
      | .ok id => { knows s.d with systemId := id }.update w m
      | _ => knows s.d := by
    intro s
    rw [synced_eq]
    have h1 := checked_result w m s
    have h2 := hc s
    simp only [Prod.mk.injEq] at h2
    by_cases ha : assignable w m = .ok ()
    · rw [ha] at h1 ⊢
      rw [M.bind_of_ok h1]
      simp only [Outcome.bind]
      generalize (checked w m s).2 = t at *
      rcases takeClientSystemId_spec w m t with ⟨id, hi, ht⟩ | ⟨o, ho, hi, _, ht⟩
      · have hb : (takeClientSystemId w m t).1 = .ok () := by rw [ht]
        rw [M.bind_of_ok hb, ht, hi]
        obtain ⟨q1, q2⟩ := parseBoth_knows w m { t with d := setClientSystemId id t.d }
        simp only
        rw [q1, q2, ← h2.1, ← h2.2]
        exact ⟨rfl, rfl⟩
      · have hn : ∀ b, (takeClientSystemId w m t).1 ≠ .ok b := by rw [ht]; exact fun _ => ho
        rw [(M.bind_notOk hn).1, ht]
        cases hx : assignedId w m with
        | ok id => exact absurd hx (hi id)
        | err => exact h2
        | panic => exact h2
    · have hn : ∀ b, (checked w m s).1 ≠ .ok b := by rw [h1]; exact fun b hb => ha hb
      rw [(M.bind_notOk hn).1]
      cases hx : assignable w m with
      | ok i => exact absurd hx ha
      | err => exact h2
      | panic => exact h2
  exact ⟨fun s => congrArg (fun x => x.1) (synced_spec w m s).logs, fun s => (hk s).1, fun s => (hk s).2⟩

/-! ## What the messages say -/

theorem sayings_bodies (segs : List (Option Seg)) :
    sayings segs = (bodies segs).map fun x => (x.1, x.2.1, x.2.2.map DE.marshalOpt) := by
  simp [sayings, bodies, saying]

theorem spoken_logged {w : World σ α} {e : Sent σ} {k : Kind} {v n : Int} {id : Str} {segs : List (Option Seg)}
    (h : Logged w e k v n id segs) : spoken e = sayings segs := by
  unfold spoken
  rw [sayings_bodies, sayings_bodies, h.body]

theorem bank_saying (b : BankId) : (bankIdentification b.country b.id).marshal =
    (marshalText b.id).map' fun x => trimRight 58 (zeroPad 3 b.country ++ b!":" ++ x) := by
  simp only [bankIdentification, DE.marshalOpt, DE.marshal, DE.marshalAll, marshalDigit]
  cases marshalText b.id <;> simp [join]

theorem identification_saying (b : BankId) (c i : Str) (r : Bool) : saying (identificationSeg b c i r) =
    identifies b c i (if r then b!"1" else b!"0") := by
  unfold saying identificationSeg identifies
  simp only [List.map_cons, List.map_nil, newSegment, newHeader, bank_saying, DE.marshalOpt, DE.marshal]
  cases r <;> rfl

theorem preparation_saying (b u l : Int) (f : Facts) : saying (preparationSeg b u l f.productName f.productVersion) =
    prepares b u l f := rfl

theorem tan_saying : saying (tanRequestV6 c!"HKIDN") = authenticates := by decide +kernel

theorem synchronisation_saying (v : Version) : saying (synchronisationSeg v) = synchronises v := by
  cases v <;> decide +kernel

theorem end_saying (i : Str) : sayings (endSegments i) = [ends i] := rfl

theorem sync_saying (d : Dialog σ α) : sayings (syncSegments d) =
    [identifies d.bankId d.clientId c!"0" b!"1", prepares 0 0 1 (facts d), authenticates, synchronises d.version] := by
  show [saying _, saying _, saying _, saying _] = _
  rw [identification_saying, tan_saying, synchronisation_saying]
  rfl

theorem init_saying (d : Dialog σ α) : sayings (initSegments d) =
    [identifies d.bankId d.clientId d.clientSystemId b!"1",
     prepares d.bankParameterData.parameters.version d.userParameters.version d.language (facts d), authenticates] := by
  show [saying _, saying _, saying _] = _
  rw [identification_saying, tan_saying]
  rfl

theorem anonymous_saying (d : Dialog σ α) : sayings (anonymousSegments d) =
    [identifies d.bankId c!"9999999999" c!"0" b!"0",
     prepares d.bankParameterData.parameters.version d.userParameters.version d.language (facts d)] := by
  show [saying _, saying _] = _
  rw [identification_saying]
  rfl

/-! ## Following the log -/

/-- Every message says what it should, given what was learned before it. -/
def Told (w : World σ α) (c : Call) (f : Facts) : Knowledge → List (Sent σ) → Prop
  | _, [] => True
  | k, e :: E => Contents c f k e ∧ Told w c f (learn w k e) E

theorem Told.append {w : World σ α} {c : Call} {f : Facts} : ∀ {E : List (Sent σ)} {k : Knowledge} {F : List (Sent σ)},
    Told w c f k E → Told w c f (E.foldl (learn w) k) F → Told w c f k (E ++ F)
  | [], _, _, _, h => h
  | _ :: _, _, _, h1, h2 => ⟨h1.1, h1.2.append h2⟩

theorem Told.at {w : World σ α} {c : Call} {f : Facts} : ∀ {E : List (Sent σ)} {k : Knowledge} {e : Sent σ} {F : List (Sent σ)},
    Told w c f k (E ++ e :: F) → Contents c f (E.foldl (learn w) k) e
  | [], _, _, _, h => h.1
  | _ :: E, _, _, _, h => Told.at (E := E) h.2

/-- From one state to another, everything sent says what it should and everything learned is
remembered. -/
def Tells (w : World σ α) (c : Call) (s t : St σ α) : Prop :=
  ∃ E, t.sent = s.sent ++ E ∧ facts t.d = facts s.d ∧ knows t.d = E.foldl (learn w) (knows s.d) ∧
    Told w c (facts s.d) (knows s.d) E

theorem Tells.refl (w : World σ α) (c : Call) (s : St σ α) : Tells w c s s := ⟨[], by simp, rfl, rfl, trivial⟩

theorem Tells.trans {w : World σ α} {c : Call} {s t u : St σ α} (h1 : Tells w c s t) (h2 : Tells w c t u) : Tells w c s u := by
  obtain ⟨E, h1, h3, h4, h5⟩ := h1
  obtain ⟨F, h2, h6, h7, h8⟩ := h2
  refine ⟨E ++ F, by rw [h2, h1, List.append_assoc], by rw [h6, h3], by rw [h7, h4, List.foldl_append], ?_⟩
  rw [h3, h4] at h8
  exact h5.append h8

theorem Tells.bind {β γ : Type} {w : World σ α} {c : Call} {m : M σ α β} {g : β → M σ α γ} (h1 : ∀ s, Tells w c s (m s).2)
    (h2 : ∀ b s, Tells w c s (g b s).2) : ∀ s, Tells w c s (m.bind g s).2 := by
  intro s
  unfold M.bind
  have := h1 s
  rcases h : m s with ⟨r, s'⟩
  rw [h] at this
  cases r with
  | ok b => exact this.trans (h2 b s')
  | err => exact this
  | panic => exact this

theorem Tells.deferred {β : Type} {w : World σ α} {c : Call} {m : M σ α β} {l : M σ α Unit} (h1 : ∀ s, Tells w c s (m s).2)
    (h2 : ∀ s, Tells w c s (l s).2) : ∀ s, Tells w c s (M.deferred m l s).2 := fun s => (h1 s).trans (h2 _)

/-- A request and the reading of its answer. -/
theorem Tells.request {w : World σ α} {c : Call} {s : St σ α} {m : M σ α (Decrypted σ)} {g : Decrypted σ → M σ α Unit}
    (l : Decrypted σ → Knowledge → Knowledge) (hf : facts (m s).2.d = facts s.d) (hk : knows (m s).2.d = knows s.d)
    (hm : ((m s).2.sent = s.sent ∧ ∀ r, (m s).1 ≠ .ok r) ∨ ∃ e : Sent σ, (m s).2.sent = s.sent ++ [e] ∧ (m s).1 = e.reply ∧
      Contents c (facts s.d) (knows s.d) e ∧
      learn w (knows s.d) e = match e.reply with
        | .ok x => l x (knows s.d)
        | _ => knows s.d)
    (hg : ∀ x, Reads (g x) (l x)) : Tells w c s (m.bind g s).2 := by
  rcases hm with ⟨h1, h2⟩ | ⟨e, h1, h2, h3, h4⟩
  · rw [(M.bind_notOk h2).1]
    exact ⟨[], by rw [h1]; simp, hf, hk, trivial⟩
  · refine ⟨[e], ?_, ?_, ?_, h3, trivial⟩
    all_goals
      cases hr : e.reply with
      | ok x =>
        rw [hr] at h2 h4
        rw [M.bind_of_ok h2]
        first
        | rw [(hg x).sent, h1]
        | rw [(hg x).facts, hf]
        | (rw [(hg x).knows, hk]; exact h4.symm)
      | err =>
        rw [hr] at h2 h4
        rw [(M.bind_notOk (by rw [h2]; simp)).1]
        first
        | exact h1
        | exact hf
        | (rw [hk]; exact h4.symm)
      | panic =>
        rw [hr] at h2 h4
        rw [(M.bind_notOk (by rw [h2]; simp)).1]
        first
        | exact h1
        | exact hf
        | (rw [hk]; exact h4.symm)

theorem tells_exchange {w : World σ α} {c : Call} {k : Kind} (segs : List (Option Seg)) (v : Version)
    (s : St σ α) (hk : k = .job ∨ k = .end_) (hc : ∀ e : Sent σ, Logged w e k s.d.version.number (s.d.messageCount + 1) s.d.dialogId segs →
      Contents c (facts s.d) (knows s.d) e) : Tells w c s (exchange w k segs v s).2 := by
  obtain ⟨h1, _, ⟨_, h2, _⟩ | ⟨_, e, h2, _, h3⟩⟩ := exchange_spec w k segs v s
  · exact ⟨[], by simpa using h2, by rw [h1]; rfl, by rw [h1]; rfl, trivial⟩
  · refine ⟨[e], h2, by rw [h1]; rfl, ?_, hc e h3, trivial⟩
    rw [h1]
    simp only [List.foldl_cons, List.foldl_nil]
    unfold learn
    rw [h3.kind]
    rcases hk with rfl | rfl <;> rfl

theorem tells_exchangePlain {w : World σ α} {c : Call} {k : Kind} (segs : List (Option Seg)) (v : Version)
    (s : St σ α) (hk : k = .job ∨ k = .end_) (hc : ∀ e : Sent σ, Logged w e k s.d.version.number (s.d.messageCount + 1) s.d.dialogId segs →
      Contents c (facts s.d) (knows s.d) e) : Tells w c s (exchangePlain w k segs v s).2 := by
  obtain ⟨h1, _, ⟨_, h2, _⟩ | ⟨_, e, h2, _, _, h3⟩⟩ := exchangePlain_spec w k segs v s
  · exact ⟨[], by simpa using h2, by rw [h1]; rfl, by rw [h1]; rfl, trivial⟩
  · refine ⟨[e], h2, by rw [h1]; rfl, ?_, hc e h3, trivial⟩
    rw [h1]
    simp only [List.foldl_cons, List.foldl_nil]
    unfold learn
    rw [h3.kind]
    rcases hk with rfl | rfl <;> rfl

/-- A call with security. -/
def Call.secured : Call → Prop
  | .sendAnonymous _ => False
  | _ => True

theorem tells_open (w : World σ α) {c : Call} (hc : c.secured) (s : St σ α) : Tells w c s (open_ w s).2 := by
  have he : open_ w s = ((exchange w .init (initSegments s.d) s.d.version).bind fun m => opened w m)
      { s with d := { s.d with dialogId := c!"0", messageCount := 0 } } := rfl
  rw [he]
  obtain ⟨h1, _, h2⟩ := exchange_spec w .init (initSegments s.d) s.d.version
    { s with d := { s.d with dialogId := c!"0", messageCount := 0 } }
  refine Tells.request (s := { s with d := { s.d with dialogId := c!"0", messageCount := 0 } })
    (fun m k => if m.header.dialogId = none then k else k.update w m) (by rw [h1]; rfl) (by rw [h1]; rfl) ?_ (opened_reads w)
  rcases h2 with ⟨_, h2, h3⟩ | ⟨_, e, h2, h3, h4⟩
  · exact Or.inl ⟨h2, h3⟩
  · refine Or.inr ⟨e, h2, h3, ?_, ?_⟩
    · unfold Contents
      rw [h4.kind, spoken_logged h4, init_saying]
      cases c with
      | sendAnonymous j => exact hc.elim
      | _ => rfl
    · unfold learn
      rw [h4.kind]
      cases e.reply <;> rfl

theorem tells_anonymousInit (w : World σ α) (j : Job) (s : St σ α) : Tells w (.sendAnonymous j) s (anonymousInit w s).2 := by
  have he : anonymousInit w s = ((exchangePlain w .init (anonymousSegments s.d) s.d.version).bind fun m => anonymousOpened w m)
      { s with d := { s.d with dialogId := c!"0", messageCount := 0 } } := rfl
  rw [he]
  obtain ⟨h1, _, h2⟩ := exchangePlain_spec w .init (anonymousSegments s.d) s.d.version
    { s with d := { s.d with dialogId := c!"0", messageCount := 0 } }
  refine Tells.request (s := { s with d := { s.d with dialogId := c!"0", messageCount := 0 } })
    (fun m k => if m.header.dialogId = none then k else k.update w m) (by rw [h1]; rfl) (by rw [h1]; rfl) ?_
    (anonymousOpened_reads w)
  rcases h2 with ⟨_, h2, h3⟩ | ⟨_, e, h2, h3, _, h4⟩
  · exact Or.inl ⟨h2, h3⟩
  · refine Or.inr ⟨e, h2, h3, ?_, ?_⟩
    · unfold Contents
      rw [h4.kind, spoken_logged h4, anonymous_saying]
      rfl
    · unfold learn
      rw [h4.kind]
      cases e.reply <;> rfl

theorem tells_end (w : World σ α) (c : Call) (s : St σ α) : Tells w c s (end_ w s).2 :=
  Tells.trans (tells_exchange [some (dialogEndSeg s.d.dialogId)] s.d.version s (Or.inr rfl) (by
    intro e he
    unfold Contents
    rw [he.kind, (logged_number he).2.2.1]
    exact (spoken_logged he).trans (end_saying _))) (by
    have : (end_ w s).2 = (exchange w .end_ [some (dialogEndSeg s.d.dialogId)] s.d.version s).2 := by
      unfold end_ M.bind
      rcases exchange w .end_ [some (dialogEndSeg s.d.dialogId)] s.d.version s with ⟨r, t⟩
      cases r <;> rfl
    rw [this]
    exact .refl w c _)

theorem tells_anonymousEnd (w : World σ α) (c : Call) (s : St σ α) : Tells w c s (anonymousEnd w s).2 :=
  Tells.trans (tells_exchangePlain [some (dialogEndSeg s.d.dialogId)] s.d.version s (Or.inr rfl) (by
    intro e he
    unfold Contents
    rw [he.kind, (logged_number he).2.2.1]
    exact (spoken_logged he).trans (end_saying _))) (by
    have : (anonymousEnd w s).2 = (exchangePlain w .end_ [some (dialogEndSeg s.d.dialogId)] s.d.version s).2 := by
      unfold anonymousEnd M.bind
      rcases exchangePlain w .end_ [some (dialogEndSeg s.d.dialogId)] s.d.version s with ⟨r, t⟩
      cases r <;> rfl
    rw [this]
    exact .refl w c _)

theorem tells_sync (w : World σ α) (c : Call) (s : St σ α) : Tells w c s (syncClientSystemId w s).2 := by
  rw [sync_eq]
  have h : ∀ s, Tells w c s (((syncRequest w).bind fun m => synced w m) s).2 := by
    intro s
    obtain ⟨h1, _, h2⟩ := syncRequest_spec w s
    refine Tells.request (fun m k => match (assignable w m).bind fun _ => assignedId w m with
      | .ok id => { k with systemId := id }.update w m
      | _ => k) (by rw [h1]; rfl) (by rw [h1]; rfl) ?_ (synced_reads w)
    rcases h2 with ⟨_, h2, h3⟩ | ⟨_, e, h2, h3, h4⟩
    · exact Or.inl ⟨h2, h3⟩
    · refine Or.inr ⟨e, h2, h3, ?_, ?_⟩
      · unfold Contents
        rw [h4.kind]
        exact (spoken_logged h4).trans (sync_saying _)
      · unfold learn
        rw [h4.kind]
        cases e.reply <;> rfl
  have he : ((syncRequest w).bind fun m => (synced w m).bind fun _ => (end_ w).bind fun _ => fun s => (.ok s.d.clientSystemId, s)) =
      (((syncRequest w).bind fun m => synced w m).bind fun _ => (end_ w).bind fun _ =>
        fun s : St σ α => (Outcome.ok s.d.clientSystemId, s)) := by
    simp only [M.bind_assoc]
  rw [he]
  exact Tells.bind h (fun _ => Tells.bind (tells_end w c) fun _ s => Tells.refl w c s) s

theorem tells_run (w : World σ α) (c : Call) (s : St σ α) : Tells w c s (run w c s).2 := by
  have hl : ∀ {β : Type} (o : Outcome β) (s : St σ α), Tells w c s (M.lift o s).2 := fun _ s => .refl w c s
  have hens : ∀ s, Tells w c s (ensureClientSystemId w s).2 := by
    intro s
    rw [ensure_state]
    split
    · exact tells_sync w c s
    · exact .refl w c s
  have hinit : c.secured → ∀ s, Tells w c s (init w s).2 := fun hc => Tells.bind hens fun _ => tells_open w hc
  cases c with
  | send j =>
    refine Tells.bind (hinit trivial) (fun _ => Tells.deferred ?_ (tells_end w _)) s
    refine Tells.bind (fun s => tells_exchange j.segments j.version s (Or.inl rfl) ?_) fun _ => Tells.bind (hl _) fun _ => hl _
    intro e he
    unfold Contents
    rw [he.kind]
    exact ⟨j, rfl, spoken_logged he⟩
  | sendAnonymous j =>
    refine Tells.bind (tells_anonymousInit w j) (fun _ => Tells.deferred ?_ (tells_anonymousEnd w _)) s
    refine Tells.bind (fun s => tells_exchangePlain j.segments j.version s (Or.inl rfl) ?_) fun _ =>
      Tells.bind (hl _) fun _ => hl _
    intro e he
    unfold Contents
    rw [he.kind]
    exact ⟨j, rfl, spoken_logged he⟩
  | sync => exact tells_sync w _ s
  | syncUser => exact Tells.bind (hinit trivial) (fun _ => Tells.deferred (hl _) (tells_end w _)) s
  | setPin p => exact ⟨[], by simp [run, void, setPin, M.modify], rfl, rfl, trivial⟩

theorem history_knows (w : World σ α) (cs : List Call) : ∀ s : St σ α,
    ∃ E, (runAll w cs s).sent = s.sent ++ E ∧ facts (runAll w cs s).d = facts s.d ∧
      knows (runAll w cs s).d = E.foldl (learn w) (knows s.d) := by
  induction cs with
  | nil => exact fun s => ⟨[], by simp [runAll], rfl, rfl⟩
  | cons c cs ih =>
    intro s
    obtain ⟨E, h1, h2, h3, _⟩ := tells_run w c s
    obtain ⟨F, h4, h5, h6⟩ := ih (run w c s).2
    rw [runAll]
    exact ⟨E ++ F, by rw [h4, h1, List.append_assoc], by rw [h5, h2], by rw [h6, h3, List.foldl_append]⟩

/-! ## C85 -/

/-- C85: after every history, what the dialog knows is what the answers to the messages in its
log taught it, one after the other; and bank, language, version and product are as given. -/
theorem C85_knowledge (w : World σ α) (cs : List Call) (s : St σ α) (E : List (Sent σ))
    (h : (runAll w cs s).sent = s.sent ++ E) :
    facts (runAll w cs s).d = facts s.d ∧ knows (runAll w cs s).d = E.foldl (learn w) (knows s.d) := by
  obtain ⟨F, h1, h2, h3⟩ := history_knows w cs s
  rw [h1] at h
  rw [List.append_cancel_left h] at h3
  exact ⟨h2, h3⟩

/-- C85: after every history, every message of every call says exactly what its kind demands,
with the client ID, client system ID and parameter versions learned from the answers to the
messages sent before it. -/
theorem C85_contents (w : World σ α) (cs : List Call) (c : Call) (s : St σ α) (E F G : List (Sent σ)) (e : Sent σ)
    (hE : (runAll w cs s).sent = s.sent ++ E)
    (h : (run w c (runAll w cs s)).2.sent = (runAll w cs s).sent ++ (F ++ e :: G)) :
    Contents c (facts s.d) ((E ++ F).foldl (learn w) (knows s.d)) e := by
  obtain ⟨h1, h2⟩ := C85_knowledge w cs s E hE
  obtain ⟨E', h3, _, _, h4⟩ := tells_run w c (runAll w cs s)
  rw [h3] at h
  rw [List.append_cancel_left h, h1, h2] at h4
  rw [List.foldl_append]
  exact Told.at h4

namespace Sample

/-- A bank that sends parameters of bank and user. -/
def telling : World Bytes Bytes where
  decoders := fun id _ =>
    if id ∈ [c!"HISYN", c!"HIUPD", c!"HIBPA", c!"HIPINS", c!"HIUPA", c!"HISALS"] then some fun b => .ok b else none
  views := { views with
    bankParameters := fun _ => .ok ⟨12, ⟨280, c!"10000000"⟩, c!"Bank", 3, 0, 0, 0⟩
    pinTan := fun _ => .ok [(c!"HKSAL", true), (c!"HKKAZ", false), (c!"HKSAL", false)]
    userParameters := fun _ => .ok ⟨c!"4711", 7, 1, [], []⟩ }
  controlRef _ := c!"1234"
  env n := ⟨fun _ => if n = 1 then
      reply b!"dia1" b!"0010::ok" b!"HISYN:3:4+sys1'HIBPA:4:3+1'HIPINS:5:1+1'HISALS:6:1+1'HIUPA:7:4+1'"
    else reply b!"dia2" b!"0010::ok" [],
    ⟨2020, 1, 2, 3, 4, 5, 0⟩, ⟨2020, 1, 2, 3, 4, 5, 0⟩, n⟩

end Sample

set_option synthInstance.maxSize 2000 in
set_option synthInstance.maxHeartbeats 200000 in
/-- Non-vacuity of `C85_knowledge` and `C85_contents`: the first call synchronises and learns, and
what the initialisation of the second call says is what was learned. -/
example : (runAll Sample.telling [.sync, .send Sample.work] (Sample.fresh Sample.good)).sent.map (fun e => (e.kind, spoken e)) =
    ([(.sync, [identifies ⟨280, c!"10000000"⟩ c!"user" c!"0" b!"1", prepares 0 0 1 ⟨⟨0, []⟩, 0, .fints300, [], []⟩, authenticates,
       synchronises .fints300]),
     (.end_, [ends c!"dia1"]),
     (.init, [identifies ⟨280, c!"10000000"⟩ c!"4711" c!"sys1" b!"1", prepares 12 7 1 ⟨⟨0, []⟩, 0, .fints300, [], []⟩, authenticates]),
     (.job, sayings Sample.work.segments),
     (.end_, [ends c!"dia2"])] : List (Kind × List Saying)) := by
  decide +kernel

end Verif.Dialog

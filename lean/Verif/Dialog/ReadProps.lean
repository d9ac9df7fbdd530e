import Verif.Dialog.WireProps

/-
C126: in every history with a bank that names things properly, the bank reads every message of the dialog.
-/

namespace Verif.Dialog

open GoLib Element Element.Spec Segment Segment.Spec Message Domain Transport Charset Time Verif.Token.Spec

variable {σ α : Type}

/-! ## Specification -/

/-- What the program takes over from an answer does not lose its end: dialog ID, client system ID, client ID, the
security functions allowed to the user, and where to continue. -/
structure CleanAnswer (w : World σ α) (m : Decrypted σ) : Prop where
  dialog : ∀ i, m.header.dialogId = some i → CleanText i
  system : ∀ x id, x ∈ m.segments c!"HISYN" → viewOf w.views.clientSystemId x = .ok id → CleanSystem id
  user : ∀ x p, x ∈ m.segments c!"HIUPA" → viewOf w.views.userParameters x = .ok p → CleanText p.userId
  functions : ∀ a ∈ m.acknowledgements, a.code = 3920 → ∀ p ∈ a.params, CleanText p
  marks : ∀ a ∈ m.acknowledgements, a.code = 3040 → ∀ p ∈ a.params, CleanText p

/-- Every answer the program can read is of that kind. -/
def CleanBank (w : World σ α) : Prop :=
  ∀ n b m, receive w.decoders ((w.env n).transport b) = .ok m → CleanAnswer w m

/-- The segments of a message. -/
def contents (e : Sent σ) : List Seg := (e.plain.content.getD []).filterMap id

/-- The keys of a dialog: the one that signs with its reference, and the one that wraps. -/
structure Keys where
  signs : PinKey
  reference : Str
  wraps : PinKey

/-- The message is read as a secured message with these keys, with its own version, dialog ID and number, and with
its own segments. -/
def Understood (k : Keys) (e : Sent σ) : Prop :=
  e.bytes.length < 10 ^ 12 → ∃ v system fn system' fn' t t',
    ReadSecured e.bytes v ⟨k.signs, system, fn, k.reference⟩ ⟨k.wraps, system', fn'⟩ t t'
      e.plain.header.hbciVersion e.plain.header.dialogId e.plain.header.number (contents e)

/-- The message is read as one that is not secured. -/
def UnderstoodPlain (e : Sent σ) : Prop :=
  e.bytes.length < 10 ^ 12 →
    ReadPlain e.bytes e.plain.header.hbciVersion e.plain.header.dialogId e.plain.header.number (contents e)

/-! ## Segments of the dialog -/

theorem cleanSeg_of {s : Seg} {fs : List (List Part)} (h : partsAll s.elements = some fs) (hc : ∀ f ∈ fs, ∀ t ∈ f, Clean t) :
    CleanSeg s := ⟨fs, h, hc⟩

theorem clean_identification {bank : BankId} {user system : Str} {r : Bool} (hb : CleanText bank.id)
    (hu : CleanText user) (hs : CleanText system) : CleanSeg (identificationSeg bank user system r) := by
  refine cleanSeg_of (fs := [stripped [.text (decimal3 bank.country), .text bank.id], word user, word system,
    word (decimal (if r then 1 else 0))]) ?_ ?_
  · simp [identificationSeg, newSegment, partsAll, partsOpt, partsOf, bankIdentification, word, decimal, decimal3]
  · intro f hf
    simp only [List.mem_cons, List.not_mem_nil, or_false] at hf
    rcases hf with rfl | rfl | rfl | rfl
    · refine clean_stripped fun t ht => ?_
      simp only [List.mem_cons, List.not_mem_nil, or_false] at ht
      rcases ht with rfl | rfl
      · exact clean_decimal3 _
      · exact hb
    · exact clean_word hu
    · exact clean_word hs
    · exact clean_word (clean_decimal _)

theorem clean_preparation {a b c : Int} {n v : Str} (hn : CleanText n) (hv : CleanText v) :
    CleanSeg (preparationSeg a b c n v) := by
  refine cleanSeg_of (fs := [word (decimal a), word (decimal b), word (decimal c),
    word (if n = [] then c!"5A624F86A785F4024DD914404" else n), word (if v = [] then c!"0.3.2" else v)]) ?_ ?_
  · simp [preparationSeg, newSegment, partsAll, partsOpt, partsOf, word, decimal]
  · intro f hf
    simp only [List.mem_cons, List.not_mem_nil, or_false] at hf
    rcases hf with rfl | rfl | rfl | rfl | rfl
    · exact clean_word (clean_decimal _)
    · exact clean_word (clean_decimal _)
    · exact clean_word (clean_decimal _)
    · refine clean_word ?_
      split
      · simp [CleanText]
      · exact hn
    · refine clean_word ?_
      split
      · simp [CleanText]
      · exact hv

theorem clean_tanRequest {r : Str} (h : CleanText r) : CleanSeg (tanRequestV6 r) := by
  refine cleanSeg_of (fs := [word c!"4", word r, word [], word [], word [], word [], word []]) ?_ ?_
  · simp [tanRequestV6, newSegment, partsAll, partsOpt, partsOf, word]
  · intro f hf
    simp only [List.mem_cons, List.not_mem_nil, or_false] at hf
    rcases hf with rfl | rfl | rfl | rfl | rfl | rfl | rfl
    · exact clean_word (by simp [CleanText])
    · exact clean_word h
    all_goals exact clean_word (by simp [CleanText])

theorem clean_synchronisation (v : Version) : CleanSeg (synchronisationSeg v) := by
  cases v
  · refine cleanSeg_of (fs := [word (decimal 0)]) ?_ ?_
    · simp [synchronisationSeg, newSegment, partsAll, partsOpt, partsOf, word, decimal]
    · intro f hf
      rw [List.mem_singleton.1 hf]
      exact clean_word (clean_decimal _)
  · refine cleanSeg_of (fs := [word c!"0"]) ?_ ?_
    · simp [synchronisationSeg, newSegment, partsAll, partsOpt, partsOf, word]
    · intro f hf
      rw [List.mem_singleton.1 hf]
      exact clean_word (by simp [CleanText])

theorem clean_dialogEnd {i : Str} (h : CleanText i) : CleanSeg (dialogEndSeg i) := by
  refine cleanSeg_of (fs := [word i]) ?_ ?_
  · simp [dialogEndSeg, newSegment, partsAll, partsOpt, partsOf, word]
  · intro f hf
    rw [List.mem_singleton.1 hf]
    exact clean_word h

/-! ## The state of the dialog -/

/-- The keys of a dialog. -/
def keysOf (d : Dialog σ α) : Keys := ⟨d.sig.key, d.sig.controlRef, d.crypto.key⟩

/-- No text of the dialog loses its end. -/
structure CleanDialog (d : Dialog σ α) : Prop where
  onePin : OnePin d
  access : CleanAccess d.sig d.crypto
  dialog : CleanText d.dialogId
  system : CleanSystem d.clientSystemId
  client : CleanText d.clientId
  bank : CleanText d.bankId.id
  product : CleanText d.productName ∧ CleanText d.productVersion

/-- A piece of program that keeps the dialog clean and its keys, with a bank that does; every message it hands over
is as `P` says, and what it returns is as `Q` says. -/
def Telling (P : Keys → Sent σ → Prop) {β : Type} (Q : β → Prop) (m : M σ α β) : Prop :=
  ∀ s, CleanDialog s.d → CleanDialog (m s).2.d ∧ keysOf (m s).2.d = keysOf s.d ∧ (m s).2.d.bankId = s.d.bankId ∧
    (m s).2.d.userId = s.d.userId ∧
    (∃ E, (m s).2.sent = s.sent ++ E ∧ ∀ e ∈ E, P (keysOf s.d) e) ∧ ∀ b, (m s).1 = .ok b → Q b

/-- Any value. -/
abbrev Any {β : Type} : β → Prop := fun _ => True

variable {P : Keys → Sent σ → Prop} {β γ : Type}

theorem Telling.bind {Q : β → Prop} {R : γ → Prop} {m : M σ α β} {g : β → M σ α γ} (h1 : Telling P Q m)
    (h2 : ∀ b, Q b → Telling P R (g b)) : Telling P R (m.bind g) := by
  intro s hs
  unfold M.bind
  have := h1 s hs
  rcases h : m s with ⟨r, s'⟩
  rw [h] at this
  obtain ⟨a1, a2, a3, a4, ⟨E, a5, a6⟩, a7⟩ := this
  simp only at a1 a2 a3 a4 a5 a7
  cases r with
  | ok b =>
    obtain ⟨b1, b2, b3, b4, ⟨F, b5, b6⟩, b7⟩ := h2 b (a7 b rfl) s' a1
    refine ⟨b1, b2.trans a2, b3.trans a3, b4.trans a4, ⟨E ++ F, by simp only; rw [b5, a5, List.append_assoc], ?_⟩, b7⟩
    intro e he
    rcases List.mem_append.1 he with he | he
    · exact a6 e he
    · rw [← a2]; exact b6 e he
  | err => exact ⟨a1, a2, a3, a4, ⟨E, a5, a6⟩, by simp⟩
  | panic => exact ⟨a1, a2, a3, a4, ⟨E, a5, a6⟩, by simp⟩

theorem Telling.deferred {Q : β → Prop} {m : M σ α β} {l : M σ α Unit} (h1 : Telling P Q m) (h2 : Telling P Any l) :
    Telling P Q (M.deferred m l) := by
  intro s hs
  obtain ⟨a1, a2, a3, a4, ⟨E, a5, a6⟩, a7⟩ := h1 s hs
  obtain ⟨b1, b2, b3, b4, ⟨F, b5, b6⟩, b7⟩ := h2 _ a1
  refine ⟨b1, b2.trans a2, b3.trans a3, b4.trans a4, ⟨E ++ F, ?_, ?_⟩, fun b hb => a7 b ?_⟩
  · show (l (m s).2).2.sent = _
    rw [b5, a5, List.append_assoc]
  · intro e he
    rcases List.mem_append.1 he with he | he
    · exact a6 e he
    · rw [← a2]; exact b6 e he
  · unfold M.deferred at hb
    simp only at hb
    split at hb
    · cases hb
    · exact hb

theorem Telling.lift (o : Outcome β) : Telling P Any (M.lift (σ := σ) (α := α) o) := fun s hs =>
  ⟨hs, rfl, rfl, rfl, ⟨[], by simp [M.lift], by simp⟩, fun _ _ => trivial⟩

theorem Telling.lift_with {Q : β → Prop} {o : Outcome β} (h : ∀ b, o = .ok b → Q b) : Telling P Q (M.lift (σ := σ) (α := α) o) :=
  fun s hs => ⟨hs, rfl, rfl, rfl, ⟨[], by simp [M.lift], by simp⟩, h⟩

theorem Telling.modify {f : Dialog σ α → Dialog σ α} (h : ∀ d, CleanDialog d → CleanDialog (f d) ∧ keysOf (f d) = keysOf d ∧
    (f d).bankId = d.bankId ∧ (f d).userId = d.userId) : Telling P Any (M.modify f) := fun s hs =>
  ⟨(h s.d hs).1, (h s.d hs).2.1, (h s.d hs).2.2.1, (h s.d hs).2.2.2, ⟨[], by simp [M.modify], by simp⟩, fun _ _ => trivial⟩

theorem Telling.any {Q : β → Prop} {m : M σ α β} (h : Telling P Q m) : Telling P Any m := fun s hs =>
  ⟨(h s hs).1, (h s hs).2.1, (h s hs).2.2.1, (h s hs).2.2.2.1, (h s hs).2.2.2.2.1, fun _ _ => trivial⟩

/-- Only the parameters of bank and user change. -/
theorem CleanDialog.same {d d' : Dialog σ α} (h : CleanDialog d) (h1 : d'.sig = d.sig) (h2 : d'.crypto = d.crypto)
    (h3 : d'.dialogId = d.dialogId) (h4 : d'.clientSystemId = d.clientSystemId) (h5 : CleanText d'.clientId)
    (h6 : d'.bankId = d.bankId) (h7 : d'.productName = d.productName ∧ d'.productVersion = d.productVersion) :
    CleanDialog d' :=
  ⟨by unfold OnePin; rw [h1, h2]; exact h.onePin, by rw [h1, h2]; exact h.access, by rw [h3]; exact h.dialog,
    by rw [h4]; exact h.system, h5, by rw [h6]; exact h.bank, by rw [h7.1, h7.2]; exact h.product⟩

theorem Telling.learn {f : Dialog σ α → Dialog σ α} (h1 : ∀ d, (f d).sig = d.sig) (h2 : ∀ d, (f d).crypto = d.crypto)
    (h3 : ∀ d, (f d).dialogId = d.dialogId) (h4 : ∀ d, (f d).clientSystemId = d.clientSystemId)
    (h5 : ∀ d, CleanDialog d → CleanText (f d).clientId)
    (h6 : ∀ d, (f d).bankId = d.bankId ∧ (f d).userId = d.userId)
    (h7 : ∀ d, (f d).productName = d.productName ∧ (f d).productVersion = d.productVersion) :
    Telling P Any (M.modify f) :=
  .modify fun d hd => ⟨hd.same (h1 d) (h2 d) (h3 d) (h4 d) (h5 d hd) (h6 d).1 (h7 d), by simp [keysOf, h1, h2], (h6 d).1, (h6 d).2⟩

/-! ## Answers -/

variable {w : World σ α} {m : Decrypted σ}

theorem telling_takeDialogId (hm : CleanAnswer w m) : Telling (α := α) P Any (takeDialogId m) := by
  intro s hs
  unfold takeDialogId
  cases h : m.header.dialogId with
  | none => exact ⟨hs, rfl, rfl, rfl, ⟨[], by simp, by simp⟩, by simp⟩
  | some i =>
    exact ⟨⟨hs.onePin, hs.access, hm.dialog i h, hs.system, hs.client, hs.bank, hs.product⟩, rfl, rfl, rfl, ⟨[], by simp, by simp⟩,
      fun _ _ => trivial⟩

theorem clean_functions (hm : CleanAnswer w m) {fs : List Str} (h : supportedFunctions w m = .ok fs) : ∀ fn ∈ fs, CleanText fn := by
  unfold supportedFunctions at h
  cases ha : securityAck m with
  | none =>
    rw [ha] at h
    simp only [Outcome.ok.injEq] at h
    rw [← h]
    simp
  | some a =>
    rw [ha] at h
    have hmem := List.mem_of_find?_eq_some ha
    have hcode := List.find?_some ha
    have hall := hm.functions a hmem (by simpa using hcode)
    simp only at h
    split at h
    · simp only [Outcome.ok.injEq] at h
      rw [← h]
      simp
    · split at h
      · simp only [Outcome.ok.injEq] at h
        rw [← h]
        simp
      · obtain ⟨l, h1, h2⟩ := Dialog.bind_ok h
        intro fn hfn
        exact hall fn (commonFunctions_mem _ _ _ h2 fn hfn).1

theorem telling_security (hm : CleanAnswer w m) : Telling P Any (updateSecurityFunction w m) := by
  intro s hs
  unfold updateSecurityFunction
  split
  · exact ⟨hs, rfl, rfl, rfl, ⟨[], by simp, by simp⟩, fun _ _ => trivial⟩
  · cases h : supportedFunctions w m with
    | err => exact ⟨hs, rfl, rfl, rfl, ⟨[], by simp, by simp⟩, by simp⟩
    | panic => exact ⟨hs, rfl, rfl, rfl, ⟨[], by simp, by simp⟩, by simp⟩
    | ok fs =>
      simp only
      cases hf : fs[(w.env s.step).mapOrder % fs.length]? with
      | none => exact ⟨hs, rfl, rfl, rfl, ⟨[], by simp, by simp⟩, by simp⟩
      | some fn =>
        have hc := clean_functions hm h fn (List.mem_of_getElem? hf)
        simp only
        split
        · exact ⟨hs, rfl, rfl, rfl, ⟨[], by simp, by simp⟩, fun _ _ => trivial⟩
        · have ha := hs.access
          refine ⟨⟨hs.onePin, ⟨ha.pin, hc, ha.reference, ha.signSystem, ha.signKey, ha.cryptSystem, ha.cryptKey⟩, hs.dialog,
            hs.system, hs.client, hs.bank, hs.product⟩, rfl, rfl, rfl, ⟨[], by simp, by simp⟩, fun _ _ => trivial⟩

theorem telling_takeSystem (hm : CleanAnswer w m) : Telling P Any (takeClientSystemId w m) := by
  unfold takeClientSystemId
  cases h : find m c!"HISYN" with
  | none => exact .lift _
  | some x =>
    have hx : x ∈ m.segments c!"HISYN" := List.mem_of_mem_head? (by unfold find at h; rw [h]; rfl)
    refine Telling.bind (Q := CleanSystem) (.lift_with fun id hid => hm.system x id hx hid) fun id hid => .modify fun d hd => ?_
    have ha := hd.access
    exact ⟨⟨hd.onePin, ⟨ha.pin, ha.signFn, ha.reference, hid, ha.signKey, hid, ha.cryptKey⟩, hd.dialog, hid, hd.client, hd.bank,
      hd.product⟩, rfl, rfl, rfl⟩

theorem telling_bank : Telling P Any (parseBankParameterData w m) := by
  unfold parseBankParameterData
  cases find m c!"HIBPA" with
  | none => exact .lift _
  | some b =>
    have hl : ∀ f : Dialog σ α → Dialog σ α, (∀ d, (f d).sig = d.sig) → (∀ d, (f d).crypto = d.crypto) →
        (∀ d, (f d).dialogId = d.dialogId) → (∀ d, (f d).clientSystemId = d.clientSystemId) →
        (∀ d, (f d).clientId = d.clientId) → (∀ d, (f d).bankId = d.bankId ∧ (f d).userId = d.userId) →
        (∀ d, (f d).productName = d.productName ∧ (f d).productVersion = d.productVersion) → Telling P Any (M.modify f) :=
      fun f h1 h2 h3 h4 h5 h6 h7 => .learn h1 h2 h3 h4 (fun d hd => by rw [h5]; exact hd.client) h6 h7
    refine (Telling.lift _).bind fun ss _ => Telling.bind (Q := Any) (hl _ ?_ ?_ ?_ ?_ ?_ ?_ ?_) fun _ _ => (Telling.lift _).bind fun p _ =>
      Telling.bind (Q := Any) (hl _ ?_ ?_ ?_ ?_ ?_ ?_ ?_) fun _ _ => Telling.bind (Q := Any) ?_ fun _ _ => hl _ ?_ ?_ ?_ ?_ ?_ ?_ ?_
    case refine_15 =>
      unfold parsePinTan
      split
      · exact .lift _
      · exact (Telling.lift _).bind fun _ _ => hl _ (fun _ => rfl) (fun _ => rfl) (fun _ => rfl) (fun _ => rfl) (fun _ => rfl)
          (fun _ => ⟨rfl, rfl⟩) (fun _ => ⟨rfl, rfl⟩)
    all_goals intro d; first | rfl | exact ⟨rfl, rfl⟩

theorem telling_accounts (xs : List (Decoded σ)) : Telling P Any (parseAccounts w xs) := by
  induction xs with
  | nil => exact .lift _
  | cons x xs ih =>
    exact (Telling.lift _).bind fun a _ => Telling.bind (Q := Any)
      (.learn (fun _ => rfl) (fun _ => rfl) (fun _ => rfl) (fun _ => rfl) (fun _ hd => hd.client) (fun _ => ⟨rfl, rfl⟩)
        (fun _ => ⟨rfl, rfl⟩)) fun _ _ => ih

theorem telling_user (hm : CleanAnswer w m) : Telling P Any (parseUserParameterData w m) := by
  unfold parseUserParameterData
  refine Telling.bind (Q := Any) ?_ fun _ _ => telling_accounts _
  unfold parseUser
  cases h : find m c!"HIUPA" with
  | none => exact .lift _
  | some x =>
    have hx : x ∈ m.segments c!"HIUPA" := List.mem_of_mem_head? (by unfold find at h; rw [h]; rfl)
    exact Telling.bind (Q := fun p => CleanText p.userId) (.lift_with fun p hp => hm.user x p hx hp) fun p hp =>
      .learn (fun _ => rfl) (fun _ => rfl) (fun _ => rfl) (fun _ => rfl) (fun _ _ => hp) (fun _ => ⟨rfl, rfl⟩) (fun _ => ⟨rfl, rfl⟩)

theorem telling_opened (hm : CleanAnswer w m) : Telling P Any (opened w m) :=
  (telling_takeDialogId hm).bind fun _ _ => telling_bank.bind fun _ _ => (telling_user hm).bind fun _ _ =>
    (Telling.lift _).bind fun _ _ => (Telling.lift _).bind fun _ _ => telling_security hm

theorem telling_anonymousOpened (hm : CleanAnswer w m) : Telling P Any (anonymousOpened w m) :=
  (telling_takeDialogId hm).bind fun _ _ => telling_bank.bind fun _ _ => (telling_user hm).bind fun _ _ =>
    (Telling.lift _).bind fun _ _ => .lift _

/-! ## Messages -/

theorem shown_positions (k n : Int) (l : List Seg) :
    (l.mapIdx fun i s => s.setPosition (i + k)).mapIdx (fun i s => shown (i + n) s) = l.mapIdx fun i s => shown (i + n) s := by
  apply List.ext_getElem
  · simp
  · intro i _ _
    simp [shown, Seg.setPosition, Header.setPosition]

theorem readSecured_positions {b : Bytes} {v : Version} {p : SignatureProvider} {c : CryptoProvider} {t t' : Civil} {i : Int}
    {d : Str} {n k : Int} {l : List Seg} (h : ReadSecured b v p c t t' i d n l) :
    ReadSecured b v p c t t' i d n (l.mapIdx fun i s => s.setPosition (i + k)) := by
  unfold ReadSecured at *
  rw [shown_positions, List.length_mapIdx]
  exact h

theorem readPlain_positions {b : Bytes} {i : Int} {d : Str} {n k : Int} {l : List Seg} (h : ReadPlain b i d n l) :
    ReadPlain b i d n (l.mapIdx fun i s => s.setPosition (i + k)) := by
  unfold ReadPlain at *
  rw [shown_positions, List.length_mapIdx]
  exact h

/-- What a message is handed over for, its segments up to their numbers, and that it is understood. -/
def Says (k : Kind) (segs : List Seg) (U : Sent σ → Prop) (e : Sent σ) : Prop :=
  e.kind = k ∧ (∃ n : Int, contents e = segs.mapIdx fun i s => s.setPosition (i + n)) ∧ U e

theorem understood_of {segs : List (Option Seg)} {h : MsgHeader} {q : MsgEnd} {v : Version} {p : SignatureProvider} {c : CryptoProvider}
    {t t' : Civil} {m m' : BasicMessage} {x : EncryptedMessage} {b : Bytes} {k : Kind} {r : Outcome (Decrypted σ)}
    (hp : p.key.pin = c.key.pin) (h1 : BasicMessage.sign ⟨h, q, none, none, some segs, v, []⟩ p t = .ok m)
    (h2 : m.encrypt c t' = .ok x) (h3 : x.msg.marshal = .ok (b, m'))
    (hs : ∀ s ∈ segs.filterMap id, CleanSeg s) (hr : h.ref = none) (hd : CleanText h.dialogId) (hq : q.number = h.number)
    (ha : CleanAccess p c) (hz : -(10 ^ 11) < h.size ∧ h.size < 10 ^ 12) :
    Says k (segs.filterMap id) (Understood ⟨p.key, p.controlRef, c.key⟩) (⟨k, m, x.msg, b, r⟩ : Sent σ) := by
  have hm : m.header = { h with position := 1 } ∧ ∃ n : Int, m.content = some (positionAll n segs).1 := by
    unfold BasicMessage.sign BasicMessage.setPositions at h1
    simp only [Outcome.ok.injEq, positionOpt] at h1
    rw [← h1]
    exact ⟨rfl, _, rfl⟩
  obtain ⟨hh, n, hcon⟩ := hm
  have hcont : contents (⟨k, m, x.msg, b, r⟩ : Sent σ) = (segs.filterMap id).mapIdx fun i s => s.setPosition (i + (n + 1)) := by
    unfold contents
    simp only
    rw [hcon, Option.getD_some, (positionAll_spec segs _).1]
    congr 1
    funext i s
    congr 1
    omega
  refine ⟨rfl, ⟨n + 1, hcont⟩, fun hl => ⟨v, p.clientSystemId, p.securityFn, c.clientSystemId, c.securityFn, t, t', ?_⟩⟩
  rw [hcont]
  simp only [hh]
  exact readSecured_positions (C125_secured hp h1 h2 h3 hs hr hd hq ha hz hl)

theorem understoodPlain_of {segs : List (Option Seg)} {h : MsgHeader} {q : MsgEnd} {v : Version} {m m' : BasicMessage} {b : Bytes}
    {k : Kind} {r : Outcome (Decrypted σ)} (h1 : BasicMessage.setPositions ⟨h, q, none, none, some segs, v, []⟩ = .ok m)
    (h2 : m.marshal = .ok (b, m'))
    (hs : ∀ s ∈ segs.filterMap id, CleanSeg s) (hr : h.ref = none) (hd : CleanText h.dialogId) (hq : q.number = h.number)
    (hz : -(10 ^ 11) < h.size ∧ h.size < 10 ^ 12) :
    Says k (segs.filterMap id) UnderstoodPlain (⟨k, m, m, b, r⟩ : Sent σ) := by
  have hm : m.header = { h with position := 1 } ∧ ∃ n : Int, m.content = some (positionAll n segs).1 := by
    unfold BasicMessage.setPositions at h1
    simp only [Outcome.ok.injEq, positionOpt] at h1
    rw [← h1]
    exact ⟨rfl, _, rfl⟩
  obtain ⟨hh, n, hcon⟩ := hm
  have hcont : contents (⟨k, m, m, b, r⟩ : Sent σ) = (segs.filterMap id).mapIdx fun i s => s.setPosition (i + (n + 1)) := by
    unfold contents
    simp only
    rw [hcon, Option.getD_some, (positionAll_spec segs _).1]
    congr 1
    funext i s
    congr 1
    omega
  refine ⟨rfl, ⟨n + 1, hcont⟩, fun hl => ?_⟩
  rw [hcont]
  simp only [hh]
  exact readPlain_positions (C125_unsecured h1 h2 hs hr hd hq hz hl)

/-- What holds of every secured message, for the segments of the job. -/
def Secured (job : List Seg) (k : Keys) (e : Sent σ) : Prop :=
  Understood k e ∧ (e.kind = .job → ∃ n : Int, contents e = job.mapIdx fun i s => s.setPosition (i + n))

/-- The same for messages that are not secured. -/
def Unprotected (job : List Seg) (_ : Keys) (e : Sent σ) : Prop :=
  UnderstoodPlain e ∧ (e.kind = .job → ∃ n : Int, contents e = job.mapIdx fun i s => s.setPosition (i + n))

theorem telling_exchange (hw : CleanBank w) (k : Kind) (segs : List (Option Seg)) (v : Version) (job : List Seg)
    (hk : k = .job → job = segs.filterMap id) {s : St σ α} (hs : CleanDialog s.d) (hc : ∀ x ∈ segs.filterMap id, CleanSeg x) :
    let r := exchange w k segs v s
    CleanDialog r.2.d ∧ keysOf r.2.d = keysOf s.d ∧ r.2.d.bankId = s.d.bankId ∧ r.2.d.userId = s.d.userId ∧
      (∃ E, r.2.sent = s.sent ++ E ∧ ∀ e ∈ E, Secured job (keysOf s.d) e) ∧ ∀ b, r.1 = .ok b → CleanAnswer w b := by
  intro r
  have hd : r.2.d = { s.d with messageCount := s.d.messageCount + 1 } := (exchange_spec w k segs v s).1
  have hans : ∀ b, r.1 = .ok b → CleanAnswer w b := by
    intro b hb
    show CleanAnswer w b
    have : (exchange w k segs v s).1 = .ok b := hb
    unfold exchange M.bind at this
    simp only [newMessage_ok] at this
    unfold sign at this
    cases hm : BasicMessage.sign _ s.d.sig (w.env (s.step + 1)).signTime with
    | err => rw [hm] at this; simp at this
    | panic => rw [hm] at this; simp at this
    | ok m =>
      rw [hm] at this
      simp only at this
      unfold requestEncrypted request at this
      split at this
      · split at this
        · exact hw _ _ _ this
        · simp at this
        · simp at this
      · simp at this
      · simp at this
  refine ⟨?_, by rw [hd]; rfl, by rw [hd], by rw [hd], ?_, hans⟩
  · rw [hd]
    exact hs.same rfl rfl rfl rfl hs.client rfl ⟨rfl, rfl⟩
  · show ∃ E, (exchange w k segs v s).2.sent = s.sent ++ E ∧ _
    unfold exchange M.bind
    simp only [newMessage_ok]
    unfold sign
    cases hm : BasicMessage.sign _ s.d.sig (w.env (s.step + 1)).signTime with
    | err => exact ⟨[], by simp, by simp⟩
    | panic => exact ⟨[], by simp, by simp⟩
    | ok m =>
      simp only
      rcases requestEncrypted_log w k m
        { s with d := { s.d with messageCount := s.d.messageCount + 1 }, step := s.step + 1 } with h | ⟨x, m', b, h1, h2, h3⟩
      · rw [h]; exact ⟨[], by simp, by simp⟩
      · rw [h3]
        refine ⟨[_], rfl, fun e he => ?_⟩
        rw [List.mem_singleton.1 he]
        have := understood_of (k := k) (r := receive w.decoders ((w.env (s.step + 1)).transport b)) hs.onePin hm h1 h2 hc rfl
          hs.dialog rfl hs.access (by simp [newMsgHeader])
        refine ⟨this.2.2, fun hj => ?_⟩
        rw [hk hj]
        exact this.2.1

theorem telling_exchangePlain (hw : CleanBank w) (k : Kind) (segs : List (Option Seg)) (v : Version) (job : List Seg)
    (hk : k = .job → job = segs.filterMap id) {s : St σ α} (hs : CleanDialog s.d) (hc : ∀ x ∈ segs.filterMap id, CleanSeg x) :
    let r := exchangePlain w k segs v s
    CleanDialog r.2.d ∧ keysOf r.2.d = keysOf s.d ∧ r.2.d.bankId = s.d.bankId ∧ r.2.d.userId = s.d.userId ∧
      (∃ E, r.2.sent = s.sent ++ E ∧ ∀ e ∈ E, Unprotected job (keysOf s.d) e) ∧ ∀ b, r.1 = .ok b → CleanAnswer w b := by
  intro r
  have hcl : CleanDialog { s.d with messageCount := s.d.messageCount + 1 } := hs.same rfl rfl rfl rfl hs.client rfl ⟨rfl, rfl⟩
  show CleanDialog (exchangePlain w k segs v s).2.d ∧ _ = _ ∧ (exchangePlain w k segs v s).2.d.bankId = _ ∧
    (exchangePlain w k segs v s).2.d.userId = _ ∧
    (∃ E, (exchangePlain w k segs v s).2.sent = s.sent ++ E ∧ _) ∧ ∀ b, (exchangePlain w k segs v s).1 = .ok b → _
  unfold r exchangePlain M.bind
  simp only [newMessage_ok, M.lift]
  cases hm : BasicMessage.setPositions _ with
  | err => exact ⟨hcl, rfl, rfl, rfl, ⟨[], by simp, by simp⟩, by simp⟩
  | panic => exact ⟨hcl, rfl, rfl, rfl, ⟨[], by simp, by simp⟩, by simp⟩
  | ok m =>
    simp only
    unfold request
    cases h2 : m.marshal with
    | err => exact ⟨hcl, rfl, rfl, rfl, ⟨[], by simp, by simp⟩, by simp⟩
    | panic => exact ⟨hcl, rfl, rfl, rfl, ⟨[], by simp, by simp⟩, by simp⟩
    | ok p =>
      refine ⟨hcl, rfl, rfl, rfl, ⟨[_], rfl, fun e he => ?_⟩, fun b hb => hw _ _ _ hb⟩
      rw [List.mem_singleton.1 he]
      have := understoodPlain_of (k := k) (r := receive w.decoders ((w.env (s.step + 1)).transport p.1)) hm h2 hc rfl hs.dialog rfl
        (by simp [newMsgHeader])
      refine ⟨this.2.2, fun hj => ?_⟩
      rw [hk hj]
      exact this.2.1

theorem Telling.at_exchange {Q : β → Prop} {job : List Seg} (hw : CleanBank w) {k : Kind} {segs : Dialog σ α → List (Option Seg)}
    {v : Dialog σ α → Version} {g : Decrypted σ → M σ α β} (hk : k = .job → ∀ d, job = (segs d).filterMap id)
    (hc : ∀ d, CleanDialog d → ∀ x ∈ (segs d).filterMap id, CleanSeg x) (hg : ∀ m, CleanAnswer w m → Telling (Secured job) Q (g m)) :
    Telling (Secured job) Q fun s => ((exchange w k (segs s.d) (v s.d)).bind g) s := by
  intro s hs
  have h := telling_exchange hw k (segs s.d) (v s.d) job (fun hj => hk hj _) hs (hc _ hs)
  unfold M.bind
  beta_reduce
  rcases hx : exchange w k (segs s.d) (v s.d) s with ⟨r, s'⟩
  rw [hx] at h
  obtain ⟨a1, a2, a3, a4, ⟨E, a5, a6⟩, a7⟩ := h
  simp only at a1 a2 a3 a4 a5 a7
  cases r with
  | ok b =>
    obtain ⟨b1, b2, b3, b4, ⟨F, b5, b6⟩, b7⟩ := hg b (a7 b rfl) s' a1
    refine ⟨b1, b2.trans a2, b3.trans a3, b4.trans a4, ⟨E ++ F, by simp only; rw [b5, a5, List.append_assoc], ?_⟩, b7⟩
    intro e he
    rcases List.mem_append.1 he with he | he
    · exact a6 e he
    · rw [← a2]; exact b6 e he
  | err => exact ⟨a1, a2, a3, a4, ⟨E, a5, a6⟩, by simp⟩
  | panic => exact ⟨a1, a2, a3, a4, ⟨E, a5, a6⟩, by simp⟩

theorem Telling.at_exchangePlain {Q : β → Prop} {job : List Seg} (hw : CleanBank w) {k : Kind} {segs : Dialog σ α → List (Option Seg)}
    {v : Dialog σ α → Version} {g : Decrypted σ → M σ α β} (hk : k = .job → ∀ d, job = (segs d).filterMap id)
    (hc : ∀ d, CleanDialog d → ∀ x ∈ (segs d).filterMap id, CleanSeg x)
    (hg : ∀ m, CleanAnswer w m → Telling (Unprotected job) Q (g m)) :
    Telling (Unprotected job) Q fun s => ((exchangePlain w k (segs s.d) (v s.d)).bind g) s := by
  intro s hs
  have h := telling_exchangePlain hw k (segs s.d) (v s.d) job (fun hj => hk hj _) hs (hc _ hs)
  unfold M.bind
  beta_reduce
  rcases hx : exchangePlain w k (segs s.d) (v s.d) s with ⟨r, s'⟩
  rw [hx] at h
  obtain ⟨a1, a2, a3, a4, ⟨E, a5, a6⟩, a7⟩ := h
  simp only at a1 a2 a3 a4 a5 a7
  cases r with
  | ok b =>
    obtain ⟨b1, b2, b3, b4, ⟨F, b5, b6⟩, b7⟩ := hg b (a7 b rfl) s' a1
    refine ⟨b1, b2.trans a2, b3.trans a3, b4.trans a4, ⟨E ++ F, by simp only; rw [b5, a5, List.append_assoc], ?_⟩, b7⟩
    intro e he
    rcases List.mem_append.1 he with he | he
    · exact a6 e he
    · rw [← a2]; exact b6 e he
  | err => exact ⟨a1, a2, a3, a4, ⟨E, a5, a6⟩, by simp⟩
  | panic => exact ⟨a1, a2, a3, a4, ⟨E, a5, a6⟩, by simp⟩

theorem clean_hkidn : CleanText c!"HKIDN" := by simp [CleanText]

theorem clean_init {d : Dialog σ α} (h : CleanDialog d) : ∀ x ∈ (initSegments d).filterMap id, CleanSeg x := by
  intro x hx
  simp only [initSegments, List.filterMap_cons, id, List.filterMap_nil, List.mem_cons, List.not_mem_nil, or_false] at hx
  rcases hx with rfl | rfl | rfl
  · exact clean_identification h.bank h.client h.system.2
  · exact clean_preparation h.product.1 h.product.2
  · exact clean_tanRequest clean_hkidn

theorem clean_sync {d : Dialog σ α} (h : CleanDialog d) : ∀ x ∈ (syncSegments d).filterMap id, CleanSeg x := by
  intro x hx
  simp only [syncSegments, List.filterMap_cons, id, List.filterMap_nil, List.mem_cons, List.not_mem_nil, or_false] at hx
  rcases hx with rfl | rfl | rfl | rfl
  · exact clean_identification h.bank h.client (by simp [CleanText])
  · exact clean_preparation h.product.1 h.product.2
  · exact clean_tanRequest clean_hkidn
  · exact clean_synchronisation _

theorem clean_anonymous {d : Dialog σ α} (h : CleanDialog d) : ∀ x ∈ (anonymousSegments d).filterMap id, CleanSeg x := by
  intro x hx
  simp only [anonymousSegments, List.filterMap_cons, id, List.filterMap_nil, List.mem_cons, List.not_mem_nil, or_false] at hx
  rcases hx with rfl | rfl
  · exact clean_identification h.bank (by simp [CleanText]) (by simp [CleanText])
  · exact clean_preparation h.product.1 h.product.2

theorem clean_last {d : Dialog σ α} (h : CleanDialog d) : ∀ x ∈ [some (dialogEndSeg d.dialogId)].filterMap id, CleanSeg x := by
  intro x hx
  simp only [List.filterMap_cons, id, List.filterMap_nil, List.mem_singleton] at hx
  rw [hx]
  exact clean_dialogEnd h.dialog

/-! ## Calls -/

variable {job : List Seg}

theorem telling_end (hw : CleanBank w) : Telling (Secured job) Any (end_ w) :=
  .at_exchange hw (k := .end_) (segs := fun d => [some (dialogEndSeg d.dialogId)]) (v := fun d => d.version) (by simp)
    (fun _ hd => clean_last hd) fun m _ => .lift (checkAcks m)

theorem telling_anonymousEnd (hw : CleanBank w) : Telling (Unprotected job) Any (anonymousEnd w) :=
  .at_exchangePlain hw (k := .end_) (segs := fun d => [some (dialogEndSeg d.dialogId)]) (v := fun d => d.version) (by simp)
    (fun _ hd => clean_last hd) fun m _ => .lift (checkAcks m)

theorem telling_syncRequest (hw : CleanBank w) : Telling (Secured job) (CleanAnswer w) (syncRequest w) := by
  intro s hs
  have hcl : CleanDialog { resetCrypto s.d with messageCount := s.d.messageCount + 1 } := by
    have ha := hs.access
    exact ⟨hs.onePin, ⟨ha.pin, ha.signFn, ha.reference, ha.signSystem, ha.signKey, ⟨by simp [resetCrypto], by simp [resetCrypto, CleanText]⟩, ha.cryptKey⟩,
      hs.dialog, hs.system, hs.client, hs.bank, hs.product⟩
  have hcl' : CleanDialog { s.d with messageCount := s.d.messageCount + 1 } := hs.same rfl rfl rfl rfl hs.client rfl ⟨rfl, rfl⟩
  unfold syncRequest M.bind
  simp only [newMessage_ok]
  unfold sign
  cases hm : BasicMessage.sign _ s.d.sig (w.env (s.step + 1)).signTime with
  | err => exact ⟨hcl', rfl, rfl, rfl, ⟨[], by simp, by simp⟩, by simp⟩
  | panic => exact ⟨hcl', rfl, rfl, rfl, ⟨[], by simp, by simp⟩, by simp⟩
  | ok m =>
    simp only [M.modify]
    have hl := requestEncrypted_log w .sync m ⟨{ resetCrypto s.d with messageCount := s.d.messageCount + 1 }, s.step + 1, s.sent⟩
    have hans : ∀ b, (requestEncrypted w .sync m
        ⟨{ resetCrypto s.d with messageCount := s.d.messageCount + 1 }, s.step + 1, s.sent⟩).1 = .ok b → CleanAnswer w b := by
      intro b this
      unfold requestEncrypted request at this
      split at this
      · split at this
        · exact hw _ _ _ this
        · simp at this
        · simp at this
      · simp at this
      · simp at this
    unfold resetCrypto at hans
    rcases hl with h | ⟨x, m', b, h1, h2, h3⟩
    · unfold resetCrypto at h
      refine ⟨by rw [h]; exact hcl, by rw [h]; rfl, by rw [h], by rw [h], ⟨[], by rw [h]; simp, by simp⟩, hans⟩
    · unfold resetCrypto at h3
      refine ⟨by rw [h3]; exact hcl, by rw [h3]; rfl, by rw [h3], by rw [h3], ⟨[_], by rw [h3], fun e he => ?_⟩, hans⟩
      rw [List.mem_singleton.1 he]
      have ha := hcl.access
      have := understood_of (k := .sync) (r := receive w.decoders ((w.env (s.step + 1)).transport b)) hcl.onePin hm h1 h2
        (clean_sync hs) rfl hs.dialog rfl ha (by simp [newMsgHeader])
      exact ⟨this.2.2, by simp⟩

theorem telling_sync (hw : CleanBank w) : Telling (Secured job) CleanSystem (syncClientSystemId w) :=
  (telling_syncRequest hw).bind fun _ hm => (telling_takeDialogId hm).bind fun _ _ => (Telling.lift _).bind fun _ _ =>
    (telling_security hm).bind fun _ _ => (telling_takeSystem hm).bind fun _ _ => telling_bank.bind fun _ _ =>
      (telling_user hm).bind fun _ _ => (telling_end hw).bind fun _ _ => fun s hs =>
        ⟨hs, rfl, rfl, rfl, ⟨[], by simp, by simp⟩, fun b hb => by simp only [Outcome.ok.injEq] at hb; rw [← hb]; exact hs.system⟩

theorem telling_open (hw : CleanBank w) : Telling (Secured job) Any (open_ w) :=
  Telling.bind (Q := Any) (.modify fun _ hd =>
      ⟨⟨hd.onePin, hd.access, by simp [CleanText], hd.system, hd.client, hd.bank, hd.product⟩, rfl, rfl, rfl⟩) fun _ _ =>
    .at_exchange hw (k := .init) (segs := initSegments) (v := fun d => d.version) (by simp) (fun _ hd => clean_init hd)
      fun _ hm => telling_opened hm

theorem telling_anonymousInit (hw : CleanBank w) : Telling (Unprotected job) Any (anonymousInit w) :=
  Telling.bind (Q := Any) (.modify fun _ hd =>
      ⟨⟨hd.onePin, hd.access, by simp [CleanText], hd.system, hd.client, hd.bank, hd.product⟩, rfl, rfl, rfl⟩) fun _ _ =>
    .at_exchangePlain hw (k := .init) (segs := anonymousSegments) (v := fun d => d.version) (by simp)
      (fun _ hd => clean_anonymous hd) fun _ hm => telling_anonymousOpened hm

theorem telling_init (hw : CleanBank w) : Telling (Secured job) Any (init w) := by
  refine Telling.bind (Q := Any) ?_ fun _ _ => telling_open hw
  intro s hs
  unfold ensureClientSystemId
  split
  · exact Telling.bind (telling_sync hw) (fun id hid => Telling.modify (f := fun d => { d with clientSystemId := id }) fun d hd =>
      ⟨⟨hd.onePin, hd.access, hd.dialog, hid, hd.client, hd.bank, hd.product⟩, rfl, rfl, rfl⟩) s hs
  · exact ⟨hs, rfl, rfl, rfl, ⟨[], by simp, by simp⟩, fun _ _ => trivial⟩

theorem telling_send (hw : CleanBank w) (j : Job) (hj : ∀ x ∈ j.segments.filterMap id, CleanSeg x) :
    Telling (Secured (j.segments.filterMap id)) (CleanAnswer w) (sendMessage w j) :=
  (telling_init hw).bind fun _ _ => .deferred
    (.at_exchange hw (k := .job) (segs := fun _ => j.segments) (v := fun _ => j.version) (fun _ _ => rfl) (fun _ _ => hj)
      fun m hm => (Telling.lift (checkAcks m)).bind fun _ _ => .lift_with fun b hb => by
        simp only [Outcome.ok.injEq] at hb
        rw [← hb]
        exact hm) (telling_end hw)

theorem telling_syncUser (hw : CleanBank w) : Telling (Secured job) Any (syncUserParameterData w) :=
  (telling_init hw).bind fun _ _ => .deferred (Q := Any) (.lift _) (telling_end hw)

theorem telling_sendAnonymous (hw : CleanBank w) (j : Job) (hj : ∀ x ∈ j.segments.filterMap id, CleanSeg x) :
    Telling (Unprotected (j.segments.filterMap id)) Any (sendAnonymousMessage w j) :=
  (telling_anonymousInit hw).bind fun _ _ => .deferred (Q := Any)
    (.at_exchangePlain hw (k := .job) (segs := fun _ => j.segments) (v := fun _ => j.version) (fun _ _ => rfl) (fun _ _ => hj)
      fun m _ => (Telling.lift (checkAcks m)).bind fun _ _ => .lift (.ok m)) (telling_anonymousEnd hw)

/-! ## Histories -/

/-- No text the caller gives loses its end. -/
def CleanCall : Call → Prop
  | .send j | .sendAnonymous j => ∀ x ∈ j.segments.filterMap id, CleanSeg x
  | .setPin p => CleanText p
  | .sync | .syncUser => True

/-- The same for what a dialog is made from; the bank has a number. -/
structure CleanStart (w : World σ α) (bank : BankId) (user name version : Str) : Prop where
  hasBank : bank.id ≠ [] ∧ CleanText bank.id
  hasUser : CleanText user
  reference : CleanText (w.controlRef ⟨bank.country, bank.id, user, c!"S", 0, 0⟩)
  product : CleanText name ∧ CleanText version

/-- The keys of a user of a bank with this PIN. -/
def keysFor (w : World σ α) (bank : BankId) (user pin : Str) : Keys :=
  ⟨⟨pin, ⟨bank.country, bank.id, user, c!"S", 0, 0⟩⟩, w.controlRef ⟨bank.country, bank.id, user, c!"S", 0, 0⟩,
    ⟨pin, ⟨bank.country, bank.id, user, c!"V", 0, 0⟩⟩⟩

/-- What the dialog is at any time. -/
structure Tidy (w : World σ α) (bank : BankId) (user pin : Str) (d : Dialog σ α) : Prop where
  clean : CleanDialog d
  keys : keysOf d = keysFor w bank user pin
  bankId : d.bankId = bank
  userId : d.userId = user

theorem Tidy.telling {bank : BankId} {user pin : Str} {Q : β → Prop} {m : M σ α β} {s : St σ α} (h : Tidy w bank user pin s.d)
    (ht : Telling P Q m) : Tidy w bank user pin (m s).2.d :=
  have := ht s h.clean
  ⟨this.1, this.2.1.trans h.keys, this.2.2.1.trans h.bankId, this.2.2.2.1.trans h.userId⟩

theorem clean_access_of {bank : BankId} {user pin system fn : Str} {name version : Str} (h : CleanStart w bank user name version)
    (hp : CleanText pin) (hs : CleanSystem system) (hf : CleanText fn) :
    CleanAccess ⟨⟨pin, pinTanKeyName bank user c!"S"⟩, system, fn, w.controlRef (pinTanKeyName bank user c!"S")⟩
      ⟨⟨pin, pinTanKeyName bank user c!"V"⟩, system, fn⟩ :=
  ⟨hp, hf, h.reference, hs, ⟨h.hasBank, h.hasUser, by simp [pinTanKeyName, CleanText]⟩, hs, ⟨h.hasBank, h.hasUser, by simp [pinTanKeyName, CleanText]⟩⟩

theorem tidy_new {bank : BankId} {user name version : Str} (v : Version) (h : CleanStart w bank user name version) :
    Tidy w bank user [] (newPinTanDialog w bank user v name version) :=
  ⟨⟨rfl, clean_access_of h (by simp [CleanText]) ⟨by simp, by simp [CleanText]⟩ (by simp [CleanText]), by simp [newPinTanDialog, CleanText],
    ⟨by simp [newPinTanDialog], by simp [newPinTanDialog, CleanText]⟩, h.hasUser, h.hasBank.2, h.product⟩, rfl, rfl, rfl⟩

theorem tidy_setPin {bank : BankId} {user pin name version : Str} (h : CleanStart w bank user name version) {p : Str} (hp : CleanText p)
    {s : St σ α} (hs : Tidy w bank user pin s.d) : Tidy w bank user p (setPin w p s).2.d := by
  obtain ⟨h1, h2, h3, h4⟩ := hs
  have e : (setPin w p s).2.d = { s.d with sig := signatureProvider w bank user p s.d.clientSystemId
                                           crypto := cryptoProvider bank user p s.d.clientSystemId } := by
    rw [← h3, ← h4]; rfl
  rw [e]
  exact ⟨⟨rfl, clean_access_of h hp h1.system (by simp [CleanText]), h1.dialog, h1.system, h1.client, h1.bank, h1.product⟩, rfl, h3, h4⟩

theorem tidy_run {bank : BankId} {user pin name version : Str} (hw : CleanBank w) (h : CleanStart w bank user name version) (c : Call)
    (hc : CleanCall c) {s : St σ α} (hs : Tidy w bank user pin s.d) : Tidy w bank user (lastPin pin [c]) (run w c s).2.d := by
  cases c with
  | send j => have := hs.telling (telling_send hw j hc); exact this
  | sendAnonymous j => have := hs.telling (telling_sendAnonymous hw j hc); exact this
  | sync => have := hs.telling (telling_sync (job := []) hw); exact this
  | syncUser => have := hs.telling (telling_syncUser (job := []) hw); exact this
  | setPin p => exact tidy_setPin h hc hs

theorem tidy_runAll {bank : BankId} {user name version : Str} (hw : CleanBank w) (h : CleanStart w bank user name version)
    (cs : List Call) : ∀ (pin : Str) {s : St σ α}, (∀ c ∈ cs, CleanCall c) → Tidy w bank user pin s.d →
      Tidy w bank user (lastPin pin cs) (runAll w cs s).d := by
  induction cs with
  | nil => intro pin s _ hs; exact hs
  | cons c cs ih =>
    intro pin s hc hs
    have := ih _ (fun c' hc' => hc c' (List.mem_cons_of_mem _ hc')) (tidy_run hw h c (hc c List.mem_cons_self) hs)
    cases c <;> exact this

/-- C126: whatever was done before with a new PIN/TAN dialog, every message of a call is read by the bank as a secured
message: with the PIN set last, the names of bank and user, its own version, dialog ID and number, and exactly its own
segments.  The segments of a message that carries a job are those of the job. -/
theorem C126_secured (w : World σ α) (bank : BankId) (user : Str) (v : Version) (name version : Str) (cs : List Call) (c : Call)
    (hw : CleanBank w) (hb : CleanStart w bank user name version) (hcs : ∀ c ∈ cs, CleanCall c) (hc : CleanCall c)
    (ha : ∀ j, c ≠ .sendAnonymous j) :
    let s := runAll w cs ⟨newPinTanDialog w bank user v name version, 0, []⟩
    ∃ E, (run w c s).2.sent = s.sent ++ E ∧ ∀ e ∈ E, Understood (keysFor w bank user (lastPin [] cs)) e ∧
      ∀ j, c = .send j → e.kind = .job → ∃ n : Int, contents e = (j.segments.filterMap id).mapIdx fun i s => s.setPosition (i + n) := by
  intro s
  have hr : Tidy w bank user (lastPin [] cs) s.d := tidy_runAll hw hb cs [] hcs (tidy_new v hb)
  have key : ∀ {job : List Seg} {β : Type} {Q : β → Prop} {m : M σ α β}, Telling (Secured job) Q m →
      ∃ E, (m s).2.sent = s.sent ++ E ∧ ∀ e ∈ E, Secured job (keysFor w bank user (lastPin [] cs)) e := by
    intro job β Q m ht
    obtain ⟨_, _, _, _, h, _⟩ := ht s hr.clean
    rw [hr.keys] at h
    exact h
  cases c with
  | send j =>
    obtain ⟨E, h1, h2⟩ := key (telling_send hw j hc)
    refine ⟨E, h1, fun e he => ⟨(h2 e he).1, fun j' hj => ?_⟩⟩
    obtain rfl : j = j' := by simpa using hj
    exact (h2 e he).2
  | sendAnonymous j => exact absurd rfl (ha j)
  | sync =>
    obtain ⟨E, h1, h2⟩ := key (telling_sync (job := []) hw)
    exact ⟨E, h1, fun e he => ⟨(h2 e he).1, by simp⟩⟩
  | syncUser =>
    obtain ⟨E, h1, h2⟩ := key (telling_syncUser (job := []) hw)
    exact ⟨E, h1, fun e he => ⟨(h2 e he).1, by simp⟩⟩
  | setPin p => exact ⟨[], by simp [run, void, setPin, M.modify], by simp⟩

/-- C126: the same for the messages of an anonymous call, which are not secured. -/
theorem C126_anonymous (w : World σ α) (bank : BankId) (user : Str) (v : Version) (name version : Str) (cs : List Call) (j : Job)
    (hw : CleanBank w) (hb : CleanStart w bank user name version) (hcs : ∀ c ∈ cs, CleanCall c)
    (hj : ∀ x ∈ j.segments.filterMap id, CleanSeg x) :
    let s := runAll w cs ⟨newPinTanDialog w bank user v name version, 0, []⟩
    ∃ E, (run w (.sendAnonymous j) s).2.sent = s.sent ++ E ∧ ∀ e ∈ E, UnderstoodPlain e ∧
      (e.kind = .job → ∃ n : Int, contents e = (j.segments.filterMap id).mapIdx fun i s => s.setPosition (i + n)) := by
  intro s
  have hr : Tidy w bank user (lastPin [] cs) s.d := tidy_runAll hw hb cs [] hcs (tidy_new v hb)
  obtain ⟨_, _, _, _, h, _⟩ := telling_sendAnonymous hw j hj s hr.clean
  exact h

/-! ## A concrete case -/

namespace Sample

/-- A bank that gives every dialog the same name. -/
def steady : Nat → Outcome Body := fun _ => good 1

theorem steady_clean : CleanBank (world steady) := by
  intro n b m h
  have e : (receive decoders (good 1)).map' (fun m => (m.header.dialogId, m.acknowledgements.map fun a => (a.code, a.params))) =
      .ok (some c!"dia1", [(10, [])]) := by decide +kernel
  have h' : receive decoders (good 1) = .ok m := h
  rw [h'] at e
  simp only [Outcome.map', Outcome.ok.injEq, Prod.mk.injEq] at e
  have hnone : ∀ a ∈ m.acknowledgements, a.params = [] := by
    intro a ha
    have : (a.code, a.params) ∈ m.acknowledgements.map fun a => (a.code, a.params) := List.mem_map_of_mem ha
    rw [e.2, List.mem_singleton] at this
    exact congrArg Prod.snd this
  refine ⟨fun i hi => ?_, fun x id _ hx => ?_, fun x p _ hx => ?_, fun a ha _ p hp => ?_, fun a ha _ p hp => ?_⟩
  · rw [e.1] at hi
    simp only [Option.some.injEq] at hi
    rw [← hi]
    simp [CleanText]
  · cases x with
    | ack a => cases hx
    | other y =>
      have : id = c!"sys1" := by
        change Outcome.ok c!"sys1" = .ok id at hx
        simpa using hx.symm
      rw [this]
      exact ⟨by simp, by simp [CleanText]⟩
  · cases x <;> cases hx
  · rw [hnone a ha] at hp; cases hp
  · rw [hnone a ha] at hp; cases hp

theorem steady_start : CleanStart (world steady) ⟨280, c!"10000000"⟩ c!"user" [] [] :=
  ⟨⟨by simp, by simp [CleanText]⟩, by simp [CleanText], by simp [world, CleanText], by simp [CleanText]⟩

end Sample

/-- With this bank a job is sent in five messages, all of which are understood. -/
example : Sample.trace (runAll (Sample.world Sample.steady) [.setPin c!"secret", .send Sample.work]
      ⟨newPinTanDialog (Sample.world Sample.steady) ⟨280, c!"10000000"⟩ c!"user" .fints300 [] [], 0, []⟩) =
    [(.sync, 1, c!"0"), (.end_, 2, c!"dia1"), (.init, 1, c!"0"), (.job, 2, c!"dia1"), (.end_, 3, c!"dia1")] := by decide +kernel

example := C126_secured (Sample.world Sample.steady) ⟨280, c!"10000000"⟩ c!"user" .fints300 [] [] [.setPin c!"secret"]
  (.send Sample.work) Sample.steady_clean Sample.steady_start (by simp [CleanCall, CleanText]) sample_segments (by simp)

example := C126_anonymous (Sample.world Sample.steady) ⟨280, c!"10000000"⟩ c!"user" .fints300 [] [] [.setPin c!"secret"]
  Sample.work Sample.steady_clean Sample.steady_start (by simp [CleanCall, CleanText]) sample_segments

end Verif.Dialog

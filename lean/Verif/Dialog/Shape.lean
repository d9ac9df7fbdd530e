import Verif.Dialog.Lemmas
import Verif.Message.ReaderProps

/-
Which messages the dialog sends: structural facts about the model of
`Verif.Dialog.Model`, from which the properties of `Verif.Dialog.Props` follow.
-/

namespace Verif.Dialog

open GoLib Element Element.Spec Segment Message Domain Transport

variable {σ α : Type}

/-! ## Texts the bank sent can be sent back -/

/-- Dialog ID and acknowledgement parameters of an answer are Latin-1. -/
structure Readable (m : Decrypted σ) : Prop where
  dialogId : ∀ i, m.header.dialogId = some i → Latin1 i
  params : ∀ a ∈ m.acknowledgements, ∀ p ∈ a.params, Latin1 p

theorem mem_unescape (c : Char) : ∀ s : Str, c ∈ unescape s → c ∈ s := by
  intro s
  fun_induction unescape s with
  | case1 x r h ih => simp only [List.mem_cons]; tauto
  | case2 x r h ih => simp only [List.mem_cons] at ih ⊢; tauto
  | case3 x r h ih => simp only [List.mem_cons]; tauto
  | case4 => simp

theorem latin1_unmarshalText (b : Bytes) : Latin1 (unmarshalText b) :=
  fun c hc => latin1_toUTF8 b c (mem_unescape c _ hc)

theorem bind_ok {β γ : Type} {o : Outcome β} {f : β → Outcome γ} {r : γ} (h : o.bind f = .ok r) :
    ∃ b, o = .ok b ∧ f b = .ok r := by
  cases o with
  | ok b => exact ⟨b, rfl, h⟩
  | err => simp [Outcome.bind] at h
  | panic => simp [Outcome.bind] at h

theorem map_ok {β γ : Type} {o : Outcome β} {f : β → γ} {r : γ} (h : o.map' f = .ok r) :
    ∃ b, o = .ok b ∧ f b = r := by
  cases o with
  | ok b => exact ⟨b, rfl, by simpa [Outcome.map'] using h⟩
  | err => simp [Outcome.map'] at h
  | panic => simp [Outcome.map'] at h

theorem msgHeader_readable {b : Bytes} {h : ReadHeader} (hh : unmarshalMsgHeader b = .ok h) :
    ∀ i, h.dialogId = some i → Latin1 i := by
  unfold unmarshalMsgHeader at hh
  obtain ⟨es, _, hh⟩ := bind_ok hh
  cases es with
  | nil => simp at hh
  | cons hb es =>
    simp only at hh
    obtain ⟨_, _, hh⟩ := bind_ok hh
    obtain ⟨_, _, hh⟩ := bind_ok hh
    obtain ⟨_, _, hh⟩ := bind_ok hh
    obtain ⟨dia, hd, hh⟩ := bind_ok hh
    obtain ⟨_, _, hh⟩ := bind_ok hh
    obtain ⟨_, _, hh⟩ := bind_ok hh
    simp only [Outcome.ok.injEq] at hh
    subst hh
    intro i hi
    simp only at hi
    subst hi
    unfold field at hd
    split at hd
    · simp at hd
    · split at hd
      · simp at hd
      · simp only [Outcome.map', Outcome.ok.injEq, Option.some.injEq] at hd
        exact hd ▸ latin1_unmarshalText _

theorem unmarshalAck_readable {b : Bytes} {a : AckEntry} (h : unmarshalAck b = .ok a) : ∀ p ∈ a.params, Latin1 p := by
  unfold unmarshalAck at h
  obtain ⟨cs, _, h⟩ := bind_ok h
  split at h
  · obtain ⟨_, _, h⟩ := map_ok h
    subst h
    intro p hp
    simp only [List.mem_map] at hp
    obtain ⟨x, _, rfl⟩ := hp
    exact latin1_toUTF8 x
  · simp at h

theorem acksOf_readable {ty : AckType} {ref : MessageReference} {number : Header → Int} {p : Bytes × Header}
    {acks : List Acknowledgement} (h : AcksOf ty ref number p acks) : ∀ a ∈ acks, ∀ p ∈ a.params, Latin1 p := by
  obtain ⟨f, es, as, _, h, rfl⟩ := h
  have key : ∀ (es : List Bytes) (as : List AckEntry), List.Forall₂ (fun e a => unmarshalAck e = .ok a) es as →
      ∀ a ∈ as, ∀ p ∈ a.params, Latin1 p := by
    intro es as h
    induction h with
    | nil => simp
    | cons h1 _ ih =>
      simp only [List.mem_cons, forall_eq_or_imp]
      exact ⟨unmarshalAck_readable h1, ih⟩
  intro a ha
  simp only [List.mem_map] at ha
  obtain ⟨x, hx, rfl⟩ := ha
  exact key es as h x hx

theorem newDecrypted_readable {other : Decoders σ} {h : ReadHeader} {raw : Bytes} {m : Decrypted σ}
    (hm : newDecrypted other h raw = .ok m) (hh : ∀ i, h.dialogId = some i → Latin1 i) : Readable m := by
  have hd : m.header = h := by
    unfold newDecrypted at hm
    obtain ⟨_, _, hm⟩ := bind_ok hm
    obtain ⟨_, _, hm⟩ := bind_ok hm
    split at hm
    · simp at hm
    · split at hm
      · simp at hm
      · simp only [Outcome.ok.injEq] at hm
        rw [← hm]
  obtain ⟨ss, hs, mine, theirs, _, _, ha, h1, h2, h3⟩ := C23_acknowledgements hm
  constructor
  · rw [hd]; exact hh
  · rw [ha]
    intro a hmem
    rcases List.mem_append.1 hmem with hx | hx
    · cases hv : version2 c!"HIRMG" ss hs with
      | nil => rw [h2 hv] at hx; simp at hx
      | cons p r => exact acksOf_readable (h1 p (by rw [hv]; rfl)) a hx
    · clear ha hmem h1 h2
      generalize version2 c!"HIRMS" ss hs = vs at h3
      induction h3 with
      | nil => simp at hx
      | cons h1 _ ih =>
        simp only [List.flatten_cons, List.mem_append] at hx
        rcases hx with hx | hx
        · exact acksOf_readable h1 a hx
        · exact ih hx

theorem receive_readable {other : Decoders σ} {answer : Outcome Body} {m : Decrypted σ}
    (h : receive other answer = .ok m) : Readable m := by
  unfold receive at h
  obtain ⟨b, _, h⟩ := bind_ok h
  obtain ⟨r, _, h⟩ := bind_ok h
  unfold Response.message at h
  obtain ⟨hd, hh, h⟩ := bind_ok h
  have hl : ∀ i, hd.dialogId = some i → Latin1 i := by
    unfold Response.readHeader at hh
    split at hh
    · simp at hh
    · exact msgHeader_readable hh
  split at h
  · obtain ⟨_, _, h⟩ := bind_ok h
    exact newDecrypted_readable h hl
  · exact newDecrypted_readable h hl

/-! ## What reading an answer does to the dialog -/

/-- The parts of a dialog that reading answers never changes. -/
def frame (d : Dialog σ α) : BankId × Str × Str × Int × Version × Str × Str × SignatureProvider × CryptoProvider :=
  (d.bankId, d.userId, d.clientSystemId, d.language, d.version, d.productName, d.productVersion,
    { d.sig with securityFn := [] }, { d.crypto with securityFn := [] })

/-- The log, the clock, the counter, and the frame of the dialog. -/
def outer (s : St σ α) := (s.sent, s.step, s.d.messageCount, frame s.d)

theorem outer_of_core {s t : St σ α} (h : core s = core t) : outer s = outer t := by
  unfold core at h
  simp only [St.mk.injEq, Dialog.mk.injEq] at h
  unfold outer frame
  simp only [Prod.mk.injEq]
  refine ⟨?_, ?_, ?_, ?_, ?_, ?_, ?_, ?_, ?_, ?_, ?_, ?_⟩ 
  all_goals
    first
    | tauto
    | (have : s.d.sig = t.d.sig := by tauto
       rw [this])
    | (have : s.d.crypto = t.d.crypto := by tauto
       rw [this])

theorem Keeps.outer_of_core {β : Type} {m : M σ α β} (h : Keeps core m) : Keeps outer m :=
  fun s => Dialog.outer_of_core (h s)

theorem takeDialogId_outer (m : Decrypted σ) : Keeps (α := α) outer (takeDialogId m) := by
  intro s
  unfold takeDialogId
  cases m.header.dialogId <;> rfl

theorem updateSecurityFunction_outer (w : World σ α) (m : Decrypted σ) : Keeps outer (updateSecurityFunction w m) := by
  intro s
  unfold updateSecurityFunction
  split
  · rfl
  · split
    · rfl
    · rfl
    · split
      · rfl
      · split <;> rfl

theorem opened_outer (w : World σ α) (m : Decrypted σ) : Keeps outer (opened w m) :=
  .bind (takeDialogId_outer m) fun _ => .bind (parseBank_core w m).outer_of_core fun _ =>
    .bind (parseUPD_core w m).outer_of_core fun _ => .bind (.lift _) fun _ => .bind (.lift _) fun _ =>
      updateSecurityFunction_outer w m

theorem anonymousOpened_outer (w : World σ α) (m : Decrypted σ) : Keeps outer (anonymousOpened w m) :=
  .bind (takeDialogId_outer m) fun _ => .bind (parseBank_core w m).outer_of_core fun _ =>
    .bind (parseUPD_core w m).outer_of_core fun _ => .bind (.lift _) fun _ => .lift _

theorem M.bind_ok {β γ : Type} {m : M σ α β} {f : β → M σ α γ} {s : St σ α} {c : γ}
    (h : (m.bind f s).1 = .ok c) : ∃ b, (m s).1 = .ok b ∧ m.bind f s = f b (m s).2 := by
  unfold M.bind at h ⊢
  rcases hm : m s with ⟨r, s'⟩
  rw [hm] at h
  cases r with
  | ok b => exact ⟨b, rfl, rfl⟩
  | err => simp at h
  | panic => simp at h

/-- Dialog ID and security functions; what the parsing of parameters leaves alone, too. -/
def mid (s : St σ α) := (s.d.dialogId, s.d.securityFn, s.d.sig.securityFn, s.d.crypto.securityFn)

theorem Keeps.mid_of_core {β : Type} {m : M σ α β} (h : Keeps core m) : Keeps mid m := by
  intro s
  have := h s
  unfold core at this
  simp only [St.mk.injEq, Dialog.mk.injEq] at this
  unfold mid
  have h1 : (m s).2.d.sig = s.d.sig := by tauto
  have h2 : (m s).2.d.crypto = s.d.crypto := by tauto
  rw [h1, h2]
  simp only [Prod.mk.injEq]
  tauto

theorem commonFunctions_mem (av : List (Str × Option Str)) : ∀ (ps fs : List Str), commonFunctions av ps = .ok fs →
    ∀ f ∈ fs, f ∈ ps ∧ ∃ n, (f, some n) ∈ av := by
  intro ps
  induction ps with
  | nil => intro fs h; simp only [commonFunctions, Outcome.ok.injEq] at h; subst h; simp
  | cons p ps ih =>
    intro fs h
    unfold commonFunctions at h
    split at h
    · intro f hf
      have := ih fs h f hf
      exact ⟨List.mem_cons_of_mem _ this.1, this.2⟩
    · simp at h
    · rename_i n hn
      obtain ⟨gs, hg, rfl⟩ := map_ok h
      intro f hf
      rcases List.mem_cons.1 hf with rfl | hf
      · refine ⟨by simp, n, ?_⟩
        unfold processName at hn
        simp only [Option.map_eq_some_iff] at hn
        obtain ⟨q, hq1, hq2⟩ := hn
        have hm := List.mem_of_find?_eq_some hq1
        have hp := List.find?_some hq1
        simp only [beq_iff_eq] at hp
        simp only [List.mem_reverse] at hm
        rw [← hq2, ← hp]
        exact hm
      · have := ih gs hg f hf
        exact ⟨List.mem_cons_of_mem _ this.1, this.2⟩

/-- The functions the bank announces, in its answer and in its parameters. -/
structure Announces (w : World σ α) (m : Decrypted σ) (fn : Str) : Prop where
  acknowledged : ∃ a, securityAck m = some a ∧ fn ∈ a.params
  described : ∃ x fs n, find m c!"HITANS" = some x ∧ viewOf w.views.tanFunctions x = .ok fs ∧ (fn, some n) ∈ fs

theorem supportedFunctions_mem (w : World σ α) (m : Decrypted σ) (fs : List Str) (h : supportedFunctions w m = .ok fs) :
    ∀ f ∈ fs, Announces w m f := by
  unfold supportedFunctions at h
  split at h
  · simp only [Outcome.ok.injEq] at h; subst h; simp
  · rename_i a ha
    split at h
    · simp only [Outcome.ok.injEq] at h; subst h; simp
    · split at h
      · simp only [Outcome.ok.injEq] at h; subst h; simp
      · rename_i x hx
        obtain ⟨av, hav, h⟩ := Dialog.bind_ok h
        intro f hf
        obtain ⟨h1, n, h2⟩ := commonFunctions_mem av _ _ h f hf
        exact ⟨⟨a, ha, h1⟩, x, av, n, hx, hav, h2⟩

/-- What becomes of the security functions. -/
theorem updateSecurityFunction_spec (w : World σ α) (m : Decrypted σ) (s : St σ α) :
    (updateSecurityFunction w m s).2 = s ∨ ∃ fn, Announces w m fn ∧ (updateSecurityFunction w m s).1 = .ok () ∧
      s.d.securityFn ≠ fn ∧ (updateSecurityFunction w m s).2 = { s with d := setSecurityFunction fn s.d } := by
  unfold updateSecurityFunction
  split
  · exact Or.inl rfl
  · split
    · exact Or.inl rfl
    · exact Or.inl rfl
    · rename_i fs hfs
      split
      · exact Or.inl rfl
      · rename_i fn hfn
        by_cases h : s.d.securityFn = fn
        · left; simp [h]
        · right
          exact ⟨fn, supportedFunctions_mem w m fs hfs fn (List.mem_of_getElem? hfn), rfl, h, by simp [h]⟩

/-- Without a PIN or with a text that is not Latin-1 nothing can be sent; this is all
that depends on the dialog. -/
def Ready (d : Dialog σ α) : Prop :=
  d.crypto.key.pin ≠ [] ∧ Latin1 d.dialogId ∧ ∀ t ∈ providerTexts d.sig d.crypto, Latin1 t

theorem canSend_iff (d : Dialog σ α) (segs : List (Option Seg)) :
    CanSend d segs ↔ Ready d ∧ ∀ x, some x ∈ segs → Writable x := by
  unfold CanSend Ready; tauto

theorem announces_latin1 {w : World σ α} {m : Decrypted σ} {fn : Str} (h : Announces w m fn) (hm : Readable m) :
    Latin1 fn := by
  obtain ⟨a, ha, hf⟩ := h.acknowledged
  exact hm.params a (List.mem_of_find?_eq_some ha) fn hf

theorem opened_ok {w : World σ α} {m : Decrypted σ} {s : St σ α} (h : (opened w m s).1 = .ok ()) :
    m.header.dialogId = some (opened w m s).2.d.dialogId ∧ checkAcks m = .ok () ∧
    ((mid (opened w m s).2).2 = (mid s).2 ∨
      ∃ fn, Announces w m fn ∧ s.d.securityFn ≠ fn ∧ (mid (opened w m s).2).2 = (fn, fn, fn)) := by
  unfold opened at h ⊢
  obtain ⟨_, h1, e1⟩ := M.bind_ok h
  rw [e1] at h ⊢
  obtain ⟨_, h2, e2⟩ := M.bind_ok h
  rw [e2] at h ⊢
  obtain ⟨_, h3, e3⟩ := M.bind_ok h
  rw [e3] at h ⊢
  obtain ⟨_, h4, e4⟩ := M.bind_ok h
  rw [e4] at h ⊢
  obtain ⟨_, h5, e5⟩ := M.bind_ok h
  rw [e5] at h ⊢
  simp only [M.lift] at h h4 h5 ⊢
  have k1 := (parseBank_core w m).mid_of_core (takeDialogId m s).2
  have k2 := (parseUPD_core w m).mid_of_core (parseBankParameterData w m (takeDialogId m s).2).2
  rw [k1] at k2
  generalize (parseUserParameterData w m (parseBankParameterData w m (takeDialogId m s).2).2).2 = t at *
  have ht : m.header.dialogId = some (takeDialogId m s).2.d.dialogId ∧ (mid (takeDialogId m s).2).2 = (mid s).2 := by
    unfold takeDialogId at h1 ⊢
    cases hd : m.header.dialogId with
    | none => rw [hd] at h1; simp at h1
    | some i => exact ⟨rfl, rfl⟩
  rw [← k2] at ht
  have hi : (takeDialogId m s).2.d.dialogId = t.d.dialogId := (congrArg Prod.fst k2).symm
  rw [hi] at ht
  have hf : t.d.securityFn = s.d.securityFn := congrArg Prod.fst ht.2
  refine ⟨?_, h5, ?_⟩
  · rcases updateSecurityFunction_spec w m t with he | ⟨fn, _, _, _, he⟩
    · rw [he]; exact ht.1
    · rw [he]; exact ht.1
  · rcases updateSecurityFunction_spec w m t with he | ⟨fn, ha, _, hne, he⟩
    · left; rw [he]; exact ht.2
    · right; exact ⟨fn, ha, hf ▸ hne, by rw [he]; rfl⟩

theorem frame_sig {d d' : Dialog σ α} (h : frame d = frame d') :
    d.sig.controlRef = d'.sig.controlRef ∧ d.sig.clientSystemId = d'.sig.clientSystemId ∧ d.sig.key = d'.sig.key ∧
    d.crypto.clientSystemId = d'.crypto.clientSystemId ∧ d.crypto.key = d'.crypto.key := by
  unfold frame at h
  simp only [Prod.mk.injEq] at h
  obtain ⟨_, _, _, _, _, _, _, h1, h2⟩ := h
  simp only [SignatureProvider.mk.injEq, CryptoProvider.mk.injEq] at h1 h2
  tauto

theorem ready_of_frame {d d' : Dialog σ α} (h : frame d' = frame d) (hr : Ready d) (hi : Latin1 d'.dialogId)
    (hf : Latin1 d'.sig.securityFn) : Ready d' := by
  obtain ⟨h1, h2, h3, h4, h5⟩ := frame_sig h
  obtain ⟨r1, _, r3⟩ := hr
  unfold Ready
  refine ⟨h5 ▸ r1, hi, ?_⟩
  unfold providerTexts at r3 ⊢
  rw [h1, h2, h3, h4, h5]
  simp only [List.mem_cons, forall_eq_or_imp] at r3 ⊢
  exact ⟨hf, r3.2⟩

/-- An accepted initialisation leaves the dialog ready to send. -/
theorem opened_ready {w : World σ α} {m : Decrypted σ} {s : St σ α} (h : (opened w m s).1 = .ok ()) (hm : Readable m)
    (hr : Ready s.d) : Ready (opened w m s).2.d := by
  obtain ⟨h1, _, h2⟩ := opened_ok h
  have hf : frame (opened w m s).2.d = frame s.d := congrArg (fun x => x.2.2.2) (opened_outer w m s)
  refine ready_of_frame hf hr (hm.dialogId _ h1) ?_
  rcases h2 with h2 | ⟨fn, ha, _, h2⟩
  · have : (opened w m s).2.d.sig.securityFn = s.d.sig.securityFn := congrArg (fun x => x.2.1) h2
    rw [this]
    exact hr.2.2 _ (by simp [providerTexts])
  · have : (opened w m s).2.d.sig.securityFn = fn := congrArg (fun x => x.2.1) h2
    rw [this]
    exact announces_latin1 ha hm

/-! ## Dialog end -/

theorem dialogEnd_writable (i : Str) : (∀ x, some x ∈ [some (dialogEndSeg i)] → Writable x) ↔ Latin1 i := by
  have h2 : Latin1 c!"HKEND" := latin1_of_all (by decide)
  simp only [List.mem_cons, Option.some.injEq, List.not_mem_nil, or_false, forall_eq]
  unfold Writable
  simp [dialogEndSeg, newSegment, newHeader, textsAll, texts, h2]

/-- The segments of a dialog end. -/
def endSegments (i : Str) : List (Option Seg) := [some (dialogEndSeg i)]

/-- What becomes of an answer that is only looked at for errors. -/
def acked (o : Outcome (Decrypted σ)) : Outcome Unit := o.bind checkAcks

theorem end_spec (w : World σ α) (s : St σ α) :
    (end_ w s).2.d = { s.d with messageCount := s.d.messageCount + 1 } ∧ (end_ w s).2.step = s.step + 1 ∧
    ((¬ Ready s.d ∧ (end_ w s).2.sent = s.sent ∧ (end_ w s).1 ≠ .ok ()) ∨
     (Ready s.d ∧ ∃ e : Sent σ, (end_ w s).2.sent = s.sent ++ [e] ∧ (end_ w s).1 = acked e.reply ∧
        Logged w e .end_ s.d.version.number (s.d.messageCount + 1) s.d.dialogId (endSegments s.d.dialogId))) := by
  have hx := exchange_spec w .end_ (endSegments s.d.dialogId) s.d.version s
  have hc : CanSend s.d (endSegments s.d.dialogId) ↔ Ready s.d := by
    rw [canSend_iff, endSegments, dialogEnd_writable]
    exact ⟨fun h => h.1, fun h => ⟨h, h.2.1⟩⟩
  rw [hc] at hx
  have he : end_ w s = ((exchange w .end_ (endSegments s.d.dialogId) s.d.version).bind fun m => M.lift (checkAcks m)) s := rfl
  rw [he]
  unfold M.bind
  rcases hr : exchange w .end_ (endSegments s.d.dialogId) s.d.version s with ⟨r, s'⟩
  rw [hr] at hx
  obtain ⟨h1, h2, h3⟩ := hx
  cases r with
  | ok m =>
    refine ⟨h1, h2, ?_⟩
    rcases h3 with ⟨n, _, h⟩ | ⟨y, e, h3, h4, h5⟩
    · exact absurd rfl (h m)
    · refine Or.inr ⟨y, e, h3, ?_, h5⟩
      rw [← h4]; rfl
  | err =>
    refine ⟨h1, h2, ?_⟩
    rcases h3 with ⟨n, h3, h⟩ | ⟨y, e, h3, h4, h5⟩
    · exact Or.inl ⟨n, h3, by simp⟩
    · refine Or.inr ⟨y, e, h3, ?_, h5⟩
      rw [← h4]; rfl
  | panic =>
    refine ⟨h1, h2, ?_⟩
    rcases h3 with ⟨n, h3, h⟩ | ⟨y, e, h3, h4, h5⟩
    · exact Or.inl ⟨n, h3, by simp⟩
    · refine Or.inr ⟨y, e, h3, ?_, h5⟩
      rw [← h4]; rfl

/-! ## Initialisation -/

/-- The state in which the answer to an initialisation is looked at. -/
def afterInit (s : St σ α) (e : Sent σ) : St σ α :=
  ⟨{ s.d with dialogId := c!"0", messageCount := 1 }, s.step + 1, s.sent ++ [e]⟩

/-- What the initialisation needs to be sent. -/
def CanOpen (d : Dialog σ α) : Prop :=
  Ready { d with dialogId := c!"0" } ∧ ∀ x, some x ∈ initSegments d → Writable x

theorem open_spec (w : World σ α) (s : St σ α) :
    (¬ CanOpen s.d ∧ (∀ u, (open_ w s).1 ≠ .ok u) ∧ (open_ w s).2.sent = s.sent ∧
      (open_ w s).2.d = { s.d with dialogId := c!"0", messageCount := 1 } ∧ (open_ w s).2.step = s.step + 1) ∨
    (CanOpen s.d ∧ ∃ e : Sent σ, Logged w e .init s.d.version.number 1 c!"0" (initSegments s.d) ∧
      (∀ m, e.reply = .ok m → open_ w s = opened w m (afterInit s e)) ∧
      ((∀ m, e.reply ≠ .ok m) → (∀ u, (open_ w s).1 ≠ .ok u) ∧ (open_ w s).2 = afterInit s e ∧
        ((open_ w s).1 = .panic ↔ e.reply = .panic))) := by
  have he : open_ w s = ((exchange w .init (initSegments s.d) s.d.version).bind fun m => opened w m)
      { s with d := { s.d with dialogId := c!"0", messageCount := 0 } } := rfl
  have hx := exchange_spec w .init (initSegments s.d) s.d.version
    { s with d := { s.d with dialogId := c!"0", messageCount := 0 } }
  have hc : CanSend { s.d with dialogId := c!"0", messageCount := 0 } (initSegments s.d) ↔ CanOpen s.d := canSend_iff _ _
  simp only [hc] at hx
  rw [he]
  unfold M.bind
  rcases hr : exchange w .init (initSegments s.d) s.d.version
    { s with d := { s.d with dialogId := c!"0", messageCount := 0 } } with ⟨r, s'⟩
  rw [hr] at hx
  obtain ⟨h1, h2, h3⟩ := hx
  rcases h3 with ⟨n, h3, h⟩ | ⟨y, e, h3, h4, h5⟩
  · left
    cases r with
    | ok m => exact absurd rfl (h m)
    | err => exact ⟨n, by simp, h3, h1, h2⟩
    | panic => exact ⟨n, by simp, h3, h1, h2⟩
  · right
    refine ⟨y, e, h5, ?_, ?_⟩
    · intro m hm
      rw [hm] at h4
      simp only at h4
      subst h4
      simp only
      congr 1
      cases s'
      simp only at h1 h2 h3
      rw [h1, h2, h3]
      rfl
    · intro hn
      have hs : s' = afterInit s e := by
        cases s'
        simp only at h1 h2 h3
        rw [h1, h2, h3]
        rfl
      simp only at h4
      cases r with
      | ok m => exact absurd h4.symm (hn m)
      | err => simp [hs, ← h4]
      | panic => simp [hs, ← h4]

/-! ## The job and the dialog end -/

/-- The messages of an opened dialog: the job if it can be marshalled, and the end. -/
theorem close_spec (w : World σ α) (j : Job) (s : St σ α) (hr : Ready s.d) :
    ((M.deferred (job w j) (end_ w)) s).2.d = { s.d with messageCount := s.d.messageCount + 2 } ∧
    ((M.deferred (job w j) (end_ w)) s).2.step = s.step + 2 ∧
    ∃ f : Sent σ, Logged w f .end_ s.d.version.number (s.d.messageCount + 2) s.d.dialogId (endSegments s.d.dialogId) ∧
    (((∃ x, some x ∈ j.segments ∧ ¬ Writable x) ∧
      ((M.deferred (job w j) (end_ w)) s).2.sent = s.sent ++ [f] ∧ ∀ r, ((M.deferred (job w j) (end_ w)) s).1 ≠ .ok r) ∨
     ((∀ x, some x ∈ j.segments → Writable x) ∧
      ∃ e : Sent σ, Logged w e .job s.d.version.number (s.d.messageCount + 1) s.d.dialogId j.segments ∧
      ((M.deferred (job w j) (end_ w)) s).2.sent = s.sent ++ [e, f] ∧
      (acked f.reply = .panic → ((M.deferred (job w j) (end_ w)) s).1 = .panic) ∧
      (acked f.reply ≠ .panic → ((M.deferred (job w j) (end_ w)) s).1 = e.reply.bind fun m => (checkAcks m).map' fun _ => m))) := by
  have hx := exchange_spec w .job j.segments j.version s
  rw [canSend_iff] at hx
  unfold M.deferred
  have hj : (job w j s).2 = (exchange w .job j.segments j.version s).2 ∧
      (job w j s).1 = (exchange w .job j.segments j.version s).1.bind fun m => (checkAcks m).map' fun _ => m := by
    unfold job M.bind
    rcases exchange w .job j.segments j.version s with ⟨r, s'⟩
    cases r with
    | ok m =>
      simp only [M.lift, Outcome.bind]
      cases checkAcks m <;> simp [Outcome.map']
    | err => simp [Outcome.bind]
    | panic => simp [Outcome.bind]
  obtain ⟨hj1, hj2⟩ := hj
  obtain ⟨x1, x2, x3⟩ := hx
  have hy := end_spec w (job w j s).2
  rw [hj1] at hy
  have hd : Ready (exchange w .job j.segments j.version s).2.d := by rw [x1]; exact hr
  obtain ⟨y1, y2, y3⟩ := hy
  simp only [hd, not_true, false_and, true_and, false_or] at y3
  obtain ⟨f, y3, y4, y5⟩ := y3
  simp only [hj1]
  rw [x1] at y5 y1
  simp only at y5 y1
  rw [show s.d.messageCount + 1 + 1 = s.d.messageCount + 2 by omega] at y5 y1
  refine ⟨y1, by rw [y2, x2], f, y5, ?_⟩
  rcases x3 with ⟨n, h1, h2⟩ | ⟨y, e, h1, h2, h3⟩
  · left
    refine ⟨?_, by rw [y3, h1], ?_⟩
    · simp only [hr, true_and] at n
      push Not at n
      exact n
    · intro r
      cases h : exchange w .job j.segments j.version s with
      | mk o t =>
        rw [h] at h2 hj2
        simp only at h2 hj2 ⊢
        cases o with
        | ok m => exact absurd rfl (h2 m)
        | err => rw [hj2]; split <;> simp [Outcome.bind]
        | panic => rw [hj2]; split <;> simp [Outcome.bind]
  · right
    refine ⟨y.2, e, h3, by rw [y3, h1]; simp, ?_, ?_⟩
    · intro hp
      rw [y4, hp]
    · intro hp
      rw [y4, hj2, h2]
      split
      · exact absurd ‹_› hp
      · rfl

/-- The same without a job. -/
theorem closeUser_spec (w : World σ α) (s : St σ α) (hr : Ready s.d) :
    ((M.deferred (M.lift (.ok ())) (end_ w)) s).2.d = { s.d with messageCount := s.d.messageCount + 1 } ∧
    ((M.deferred (M.lift (.ok ())) (end_ w)) s).2.step = s.step + 1 ∧
    ∃ f : Sent σ, Logged w f .end_ s.d.version.number (s.d.messageCount + 1) s.d.dialogId (endSegments s.d.dialogId) ∧
      ((M.deferred (M.lift (.ok ())) (end_ w)) s).2.sent = s.sent ++ [f] ∧
      (((M.deferred (M.lift (.ok ())) (end_ w)) s).1 = .panic ↔ f.reply = .panic) ∧
      (((M.deferred (M.lift (.ok ())) (end_ w)) s).1 = .ok () ↔ f.reply ≠ .panic) := by
  unfold M.deferred M.lift
  obtain ⟨y1, y2, y3⟩ := end_spec w s
  simp only [hr, not_true, false_and, true_and, false_or] at y3
  obtain ⟨f, y3, y4, y5⟩ := y3
  refine ⟨y1, y2, f, y5, y3, ?_⟩
  simp only
  rw [y4]
  unfold acked
  cases f.reply with
  | ok m =>
    simp only [Outcome.bind, checkAcks]
    split <;> simp_all
    split at * <;> simp_all
  | err => simp [Outcome.bind]
  | panic => simp [Outcome.bind]

/-! ## Synchronisation -/

/-- The dialog with the crypto provider reset. -/
def resetCrypto (d : Dialog σ α) : Dialog σ α := { d with crypto := { d.crypto with clientSystemId := c!"0" } }

theorem syncRequest_spec (w : World σ α) (s : St σ α) :
    (syncRequest w s).2.d = { resetCrypto s.d with messageCount := s.d.messageCount + 1 } ∧
    (syncRequest w s).2.step = s.step + 1 ∧
    ((¬ CanSend (resetCrypto s.d) (syncSegments s.d) ∧ (syncRequest w s).2.sent = s.sent ∧ ∀ r, (syncRequest w s).1 ≠ .ok r) ∨
     (CanSend (resetCrypto s.d) (syncSegments s.d) ∧ ∃ e : Sent σ, (syncRequest w s).2.sent = s.sent ++ [e] ∧
        (syncRequest w s).1 = e.reply ∧
        Logged w e .sync s.d.version.number (s.d.messageCount + 1) s.d.dialogId (syncSegments s.d))) := by
  unfold syncRequest M.bind
  simp only [newMessage_ok]
  unfold sign
  obtain ⟨m', hm, hs⟩ := sign_ok
    { header := newMsgHeader (-1) s.d.version.number s.d.dialogId (s.d.messageCount + 1)
      end_ := ⟨-1, s.d.messageCount + 1⟩, sigBegin := none, sigEnd := none, content := some (syncSegments s.d),
      version := s.d.version, cache := [] }
    (syncSegments s.d) rfl s.d.sig (w.env (s.step + 1)).signTime
  simp only [hm, M.modify]
  obtain ⟨segs', hc, hb, hwr⟩ := hs.content
  obtain ⟨q1, q2, q3⟩ := requestEncrypted_spec w .sync m' segs' hc (by rw [hs.header]; rfl)
    { s with d := { resetCrypto s.d with messageCount := s.d.messageCount + 1 }, step := s.step + 1 }
  unfold resetCrypto at q1 q2 q3
  refine ⟨q1, q2, ?_⟩
  have hx := hs.writable
  have hd : m'.header.dialogId = s.d.dialogId := by rw [hs.header]; rfl
  simp only [hd, hwr] at q3
  unfold CanSend providerTexts resetCrypto
  simp only [List.mem_cons, List.not_mem_nil, or_false, forall_eq_or_imp, forall_eq] at hx q3 ⊢
  rcases q3 with ⟨n, h1, h2⟩ | ⟨y, e, h1, h2, h3, h4, h5, h6, h7, h8⟩
  · exact Or.inl ⟨by tauto, h1, h2⟩
  · refine Or.inr ⟨by tauto, e, h1, h2, h3, ?_, ?_, ?_, ?_, ?_, h7, ⟨_, h8⟩⟩
    · rw [h5, hs.header]; rfl
    · rw [h6, hs.number]
    · rw [h4, h5]
    · rw [h4, h6]
    · rw [h4, hc]; exact hb

end Verif.Dialog

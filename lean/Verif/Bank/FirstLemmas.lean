import Verif.Bank.ServiceProps

/-
Lemmas for C103: the first call of a client.
-/

namespace Verif.Dialog

open GoLib Element Element.Spec Segment Message Domain Transport

variable {σ α : Type}

/-- A synchronisation that can be sent is answered by the transport of its step. -/
theorem syncRequest_answered (w : World σ α) (s : St σ α) (hc : CanSend (resetCrypto s.d) (syncSegments s.d)) :
    ∃ e : Sent σ, syncRequest w s = (e.reply, afterSync s e) ∧ e.kind = .sync ∧
      e.reply = receive w.decoders ((w.env (s.step + 1)).transport e.bytes) := by
  unfold syncRequest M.bind
  simp only [newMessage_ok]
  unfold sign
  obtain ⟨m', hm, hs⟩ := sign_ok
    { header := newMsgHeader (-1) s.d.version.number s.d.dialogId (s.d.messageCount + 1)
      end_ := ⟨-1, s.d.messageCount + 1⟩, sigBegin := none, sigEnd := none, content := some (syncSegments s.d),
      version := s.d.version, cache := [] }
    (syncSegments s.d) rfl s.d.sig (w.env (s.step + 1)).signTime
  simp only [hm, M.modify]
  obtain ⟨segs', hc', hb, hwr⟩ := hs.content
  obtain ⟨q1, q2, q3⟩ := requestEncrypted_spec w .sync m' segs' hc' (by rw [hs.header]; rfl)
    { s with d := { resetCrypto s.d with messageCount := s.d.messageCount + 1 }, step := s.step + 1 }
  unfold resetCrypto at q1 q2 q3
  have hx := hs.writable
  have hd : m'.header.dialogId = s.d.dialogId := by rw [hs.header]; rfl
  simp only [hd, hwr] at q3
  unfold CanSend providerTexts resetCrypto at hc
  simp only [List.mem_cons, List.not_mem_nil, or_false, forall_eq_or_imp, forall_eq] at hx q3 hc
  rcases q3 with ⟨n, h1, h2⟩ | ⟨y, e, h1, h2, h3, h4, h5, h6, h7, h8⟩
  · exact absurd (by tauto) n
  · exact ⟨e, Prod.ext h2 (st_eq q1 q2 h1), h3, h8⟩

/-- An exchange that ends a dialog. -/
theorem end_answered (w : World σ α) (s : St σ α) (hr : Ready s.d) :
    ∃ e : Sent σ, end_ w s = (acked e.reply, ⟨{ s.d with messageCount := s.d.messageCount + 1 }, s.step + 1, s.sent ++ [e]⟩) ∧
      e.kind = .end_ ∧ e.reply = receive w.decoders ((w.env (s.step + 1)).transport e.bytes) := by
  obtain ⟨e, h1, h2, h3, h4⟩ := exchange_answered w .end_ (endSegments s.d.dialogId) s.d.version s (by
    rw [canSend_iff, endSegments, dialogEnd_writable]
    exact ⟨hr, hr.2.1⟩)
  refine ⟨e, ?_, h3, h4⟩
  have he : end_ w s = ((exchange w .end_ (endSegments s.d.dialogId) s.d.version).bind fun m => M.lift (checkAcks m)) s := rfl
  rw [he]
  unfold M.bind
  rcases hx : exchange w .end_ (endSegments s.d.dialogId) s.d.version s with ⟨r, t⟩
  rw [hx] at h1 h2
  simp only at h1 h2
  subst h2
  rw [h1]
  unfold acked
  cases e.reply <;> rfl

theorem parseBank_supported (w : World σ α) (m : Decrypted σ) {b : Decoded σ} {ss : List (Str × Int)} (h1 : find m c!"HIBPA" = some b)
    (h2 : m.supportedSegments = .ok ss) (s : St σ α) : (parseBankParameterData w m s).2.d.supportedSegments = ss := by
  unfold parseBankParameterData
  rw [h1]
  simp only [M.bind, M.lift, M.modify, h2]
  cases viewOf w.views.bankParameters b with
  | err => rfl
  | panic => rfl
  | ok p =>
    simp only
    unfold parsePinTan
    cases find m c!"HIPINS" with
    | none => rfl
    | some x =>
      simp only [M.bind, M.lift, M.modify]
      cases viewOf w.views.pinTan x <;> rfl

theorem parseUPD_supported (w : World σ α) (m : Decrypted σ) : Keeps (fun s => s.d.supportedSegments) (parseUserParameterData w m) := by
  unfold parseUserParameterData
  refine .bind ?_ fun _ => ?_
  · unfold parseUser
    split
    · exact .lift _
    · exact .bind (.lift _) fun _ => .modify fun _ => rfl
  · generalize m.segments c!"HIUPD" = xs
    induction xs with
    | nil => exact .lift _
    | cons x xs ih => exact .bind (.lift _) fun _ => .bind (.modify fun _ => rfl) fun _ => ih

/-- The security function stays one that can be written. -/
theorem synced_securityFn (w : World σ α) (m : Decrypted σ) (hm : Readable m) (s : St σ α) (hs : Latin1 s.d.sig.securityFn) :
    Latin1 (synced w m s).2.d.sig.securityFn := by
  have step : ∀ {β γ : Type} (a : M σ α β) (f : β → M σ α γ),
      (∀ s, Latin1 s.d.sig.securityFn → Latin1 (a s).2.d.sig.securityFn) →
      (∀ b s, Latin1 s.d.sig.securityFn → Latin1 (f b s).2.d.sig.securityFn) →
      ∀ s, Latin1 s.d.sig.securityFn → Latin1 (a.bind f s).2.d.sig.securityFn := by
    intro β γ a f ha hf s hs
    have := ha s hs
    unfold M.bind
    rcases hx : a s with ⟨r, t⟩
    rw [hx] at this
    cases r with
    | ok b => exact hf b t this
    | err => exact this
    | panic => exact this
  unfold synced
  refine step _ _ ?_ (fun _ => step _ _ ?_ fun _ => step _ _ ?_ fun _ => step _ _ ?_ fun _ => ?_) s hs
  · intro s hs
    unfold takeDialogId
    cases m.header.dialogId <;> exact hs
  · intro s hs
    exact hs
  · intro s hs
    rcases updateSecurityFunction_spec w m s with h | ⟨fn, h1, _, _, h⟩ <;> rw [h]
    · exact hs
    · exact announces_latin1 h1 hm
  · intro s hs
    rcases takeClientSystemId_spec w m s with ⟨id, _, h⟩ | ⟨o, _, _, _, h⟩ <;> rw [h] <;> exact hs
  · intro s hs
    have := (parseBoth_core w m).mid_of_core s
    simp only [mid, Prod.mk.injEq] at this
    rw [this.2.2.1]
    exact hs

/-- The supported segments are those of the answer. -/
theorem synced_supported (w : World σ α) (m : Decrypted σ) {b : Decoded σ} {ss : List (Str × Int)} (h1 : find m c!"HIBPA" = some b)
    (h2 : m.supportedSegments = .ok ss) (s : St σ α) (h : (synced w m s).1 = .ok ()) : (synced w m s).2.d.supportedSegments = ss := by
  rw [synced_eq] at h ⊢
  obtain ⟨_, _, e1⟩ := M.bind_ok h
  rw [e1] at h ⊢
  obtain ⟨_, _, e2⟩ := M.bind_ok h
  rw [e2]
  unfold parseBoth
  exact bind_value (f := fun s : St σ α => s.d.supportedSegments) (parseBank_supported w m h1 h2 _) fun _ => parseUPD_supported w m

end Verif.Dialog

namespace Verif.Bank

open GoLib Element Element.Spec Segment Segment.Spec Message Message.Spec Dialog Domain Transport Client

/-- A dialog that has a PIN, and whose texts can be written. -/
structure Configured {σ α : Type} (d : Dialog σ α) : Prop where
  pin : d.crypto.key.pin ≠ []
  texts : ∀ t ∈ [d.dialogId, d.bankId.id, d.clientId, d.productName, d.productVersion,
    d.sig.securityFn, d.sig.controlRef, d.sig.clientSystemId, d.sig.key.keyName.bankId, d.sig.key.keyName.userId,
    d.sig.key.keyName.keyType, d.sig.key.pin, d.crypto.key.keyName.bankId, d.crypto.key.keyName.userId,
    d.crypto.key.keyName.keyType], Latin1 t

/-- The answers of the bank to a synchronisation: to the request, and to the end. -/
structure Greeting where
  start : Answer
  closing : Answer

/-- The bank assigns a client system ID, tells its parameters, and does not refuse. -/
structure Greeting.Good (g : Greeting) (id : Str) (b : BankParameters) : Prop where
  start : g.start.Good
  closing : g.closing.Good
  welcome : Welcoming g.start.envelope g.start.segments
  system : firstSaid Item.systemId g.start.segments = some id
  assigned : id ≠ c!"0"
  bank : firstSaid Item.bankParameters g.start.segments = some b
  version : b.version ≠ 0
  ends : ¬ g.closing.Refuses

/-- The segments the bank supports, with their versions: those whose ID is longer than five letters. -/
def Answer.supported (a : Answer) : List (Str × Int) :=
  (a.segments.filter fun p => decide (5 < utf8Length p.item.id)).map fun p => (p.item.id, p.item.version)

theorem Configured.sends {σ α : Type} {d : Dialog σ α} (h : Configured d) : CanSend (resetCrypto d) (syncSegments d) := by
  have ht := h.texts
  simp only [List.mem_cons, List.not_mem_nil, or_false, forall_eq_or_imp, forall_eq] at ht
  obtain ⟨h0, h1, h2, h4, h5, h6, h7, h8, h9, h10, h11, h12, h13, h14, h15⟩ := ht
  rw [canSend_iff]
  have k0 := zero
  refine ⟨⟨h.pin, h0, ?_⟩, ?_⟩
  · simp only [providerTexts, resetCrypto, List.mem_cons, List.not_mem_nil, or_false, forall_eq_or_imp, forall_eq]
    exact ⟨h6, h7, h8, h9, h10, h11, h12, k0, h13, h14, h15⟩
  · intro x hx
    simp only [syncSegments, List.mem_cons, Option.some.injEq, List.not_mem_nil, reduceCtorEq, or_false, false_or] at hx
    have k1 : Latin1 c!"HKIDN" := latin1_of_all (by decide)
    have k2 : Latin1 c!"HKVVB" := latin1_of_all (by decide)
    have k4 : Latin1 c!"5A624F86A785F4024DD914404" := latin1_of_all (by decide)
    have k5 : Latin1 c!"0.3.2" := latin1_of_all (by decide)
    rcases hx with rfl | rfl | rfl | rfl
    · refine ⟨k1, ?_⟩
      simp [identificationSeg, newSegment, textsAll, Dialog.texts, bankIdentification, h1, h2, k0]
    · refine ⟨k2, ?_⟩
      simp only [preparationSeg, newSegment, textsAll, Dialog.texts, List.append_nil, List.nil_append, List.cons_append,
        List.mem_cons, List.not_mem_nil, or_false, forall_eq_or_imp, forall_eq]
      refine ⟨?_, ?_⟩
      · split
        · exact k4
        · exact h4
      · split
        · exact k5
        · exact h5
    · exact tan_writable
    · have k6 : Latin1 c!"HKSYN" := latin1_of_all (by decide)
      cases d.version
      · refine ⟨k6, ?_⟩
        simp [synchronisationSeg, newSegment, textsAll, Dialog.texts]
      · refine ⟨k6, ?_⟩
        simp [synchronisationSeg, newSegment, textsAll, Dialog.texts, k0]

variable {w : World BankSeg AccountInformation}

theorem system_latin1 {ps : List Placed} (hg : ∀ p ∈ ps, p.Good) {id : Str} (h : firstSaid Item.systemId ps = some id) :
    Latin1 id := by
  obtain ⟨p, hp, hu⟩ := List.exists_of_findSome?_eq_some h
  have hg := (hg p hp).item
  cases hi : p.item <;> rw [hi] at hu hg <;> simp only [Item.systemId, reduceCtorEq, Option.some.injEq] at hu
  subst hu
  exact hg.2.1.1

/-- A synchronisation with such a bank. -/
theorem sync_served (hd : w.decoders = decoders) (hv : w.views = views) {g : Greeting} {id : Str} {b : BankParameters}
    (hg : g.Good id b) {s : St BankSeg AccountInformation}
    (h1 : ∀ b, (w.env (s.step + 1)).transport b = .ok (g.start.bytes, true))
    (h2 : ∀ b, (w.env (s.step + 2)).transport b = .ok (g.closing.bytes, true)) (hs : Configured s.d) :
    ∃ t g1 g2, syncClientSystemId w s = (.ok id, t) ∧ t.sent = s.sent ++ [g1, g2] ∧ g1.kind = .sync ∧ g2.kind = .end_ ∧
      t.step = s.step + 2 ∧ Settled t.d ∧ t.d.supportedSegments = g.start.supported ∧
      t.d.accounts = s.d.accounts ++ allSaid Item.accountInformation g.start.segments := by
  have ht := hs.texts
  simp only [List.mem_cons, List.not_mem_nil, or_false, forall_eq_or_imp, forall_eq] at ht
  obtain ⟨t0, t1, t2, t4, t5, t6, t7, t8, t9, t10, t11, t12, t13, t14, t15⟩ := ht
  obtain ⟨g1, a1, a2, a3⟩ := syncRequest_answered w s hs.sends
  rw [h1, hd] at a3
  obtain ⟨m, b1, b2⟩ := C95_answer hg.start.envelope hg.start.segments hg.start.size
  have a4 : g1.reply = .ok m := a3.trans b1
  have hread : Readable m := receive_readable b1
  have hsy := synced_spec w m (afterSync s g1)
  have hend : (w.env (s.step + 1 + 1)) = w.env (s.step + 2) := rfl
  have hassign : ((assignable w m).bind fun _ => assignedId w m) = .ok id :=
    (assigns_iff w m id).2 (assigned_of_sees hv b2 hg.welcome hg.system)
  obtain ⟨r1, r2, r3, r4, r5⟩ := readable_of_sees hv b2
  have hacc : syncAcceptable w m = .ok () := by
    obtain ⟨_, q1, q2⟩ := bind_eq_ok.1 hassign
    unfold syncAcceptable parametersReadable
    rw [q1, q2, r1, r2, (accountsReadable_iff w _).2]
    · rfl
    · intro x hx
      have := List.mem_map_of_mem (f := viewOf views.account) hx
      rw [b2.accounts] at this
      obtain ⟨a, _, ha⟩ := List.mem_map.1 this
      exact ⟨a, by rw [hv, ha]⟩
  have hok : (synced w m (afterSync s g1)).1 = .ok () := hsy.result.trans hacc
  have hids : ids (synced w m (afterSync s g1)).2 = (id, id, id) := by
    rcases hsy.ids with ⟨_, h⟩ | ⟨id', h, h'⟩
    · exact absurd hassign (h id)
    · rw [hassign] at h
      cases h
      exact h'
  have hknow := (synced_reads w m).knows (afterSync s g1)
  have hfacts := (synced_reads w m).facts (afterSync s g1)
  have hfn := synced_securityFn w m hread (afterSync s g1) t6
  have hsup : (synced w m (afterSync s g1)).2.d.supportedSegments = g.start.supported := by
    rcases find_said b2.bank with ⟨_, k⟩ | ⟨x, b', k1, _, _⟩
    · have := hg.bank
      rw [k] at this
      cases this
    · exact synced_supported w m k1 b2.supported _ hok
  have hacs := hsy.accounts
  have hdia := hsy.dialogId
  have hlogs := hsy.logs
  rw [gainedBySync, hassign] at hacs
  simp only [r5] at hacs
  rw [hassign] at hknow
  simp only [Knowledge.update, r3, r4, hg.bank, Option.getD_some] at hknow
  generalize hT : (synced w m (afterSync s g1)).2 = T at hids hknow hfacts hfn hsup hacs hdia hlogs
  simp only [ids, Prod.mk.injEq] at hids
  simp only [logs, afterSync, resetCrypto, Prod.mk.injEq] at hlogs
  simp only [knows, afterSync, resetCrypto, Knowledge.mk.injEq] at hknow
  simp only [facts, afterSync, resetCrypto, Facts.mk.injEq] at hfacts
  obtain ⟨i1, i2, i3⟩ := hids
  obtain ⟨l1, l2, l3, l4, l5, l6, l7, l8, l9⟩ := hlogs
  obtain ⟨n1, n2, n3, n4⟩ := hknow
  obtain ⟨f1, f2, f3, f4, f5⟩ := hfacts
  have hid : Latin1 id := system_latin1 hg.start.segments hg.system
  have hdl : Latin1 T.d.dialogId := by
    rw [hdia]
    cases hx : m.header.dialogId with
    | none => exact t0
    | some i => exact hread.dialogId i hx
  have hcl : Latin1 T.d.clientId := by
    rw [n1]
    cases hu : firstSaid Item.userParameters g.start.segments with
    | none => exact t2
    | some u => exact user_latin1 hg.start.segments hu
  have hready : Ready T.d := by
    refine ⟨by rw [l8]; exact hs.pin, hdl, ?_⟩
    simp only [providerTexts, List.mem_cons, List.not_mem_nil, or_false, forall_eq_or_imp, forall_eq, i2, i3, l7, l8, l9]
    exact ⟨hfn, t7, hid, t9, t10, t11, t12, hid, t13, t14, t15⟩
  obtain ⟨g2, e1, e2, e3⟩ := end_answered w T hready
  rw [l2, hend, h2, hd] at e3
  obtain ⟨m2, c1, c2⟩ := C95_answer hg.closing.envelope hg.closing.segments hg.closing.size
  have e4 : g2.reply = .ok m2 := e3.trans c1
  have hack : checkAcks m2 = .ok () := (checkAcks_iff m2).2 ((accepted_iff c2.acknowledgements).2 hg.ends)
  have hrun : syncClientSystemId w s = (.ok id, ⟨{ T.d with messageCount := T.d.messageCount + 1 }, T.step + 1, T.sent ++ [g2]⟩) := by
    rw [sync_eq]
    have q1 : (syncRequest w s).1 = .ok m := by rw [a1]; exact a4
    have q2 : (syncRequest w s).2 = afterSync s g1 := by rw [a1]
    rw [M.bind_of_ok q1, q2, M.bind_of_ok hok, hT]
    have q3 : acked g2.reply = .ok () := by rw [e4]; exact hack
    unfold M.bind
    rw [e1, q3]
    simp only [i1]
  refine ⟨_, g1, g2, hrun, ?_, a2, e2, ?_, ?_, hsup, ?_⟩
  · simp only [l1, List.append_assoc, List.cons_append, List.nil_append]
  · simp only [l2]
  · refine ⟨?_, ?_, hready.1, ?_⟩
    · simp only [i1]; exact hg.assigned
    · simp only [n3]; exact hg.version
    · simp only [List.mem_cons, List.not_mem_nil, or_false, forall_eq_or_imp, forall_eq, i1, i2, i3, l5, l7, l8, l9, f4, f5]
      exact ⟨t1, hcl, hid, t4, t5, hfn, t7, hid, t9, t10, t11, t12, hid, t13, t14, t15⟩
  · rw [hacs]; rfl

end Verif.Bank

import Verif.Bank.FetchProps
import Verif.Dialog.ContentProps

/-
Lemmas for C102: a dialog with a bank that answers every message.
-/

namespace Verif.Dialog

open GoLib Element Segment Message Domain Transport

variable {σ α : Type}

theorem st_eq {a : St σ α} {d : Dialog σ α} {n : Nat} {l : List (Sent σ)} (h1 : a.d = d) (h2 : a.step = n) (h3 : a.sent = l) :
    a = ⟨d, n, l⟩ := by
  cases a
  cases h1
  cases h2
  cases h3
  rfl

/-- A secured exchange that can be sent is answered by the transport of its step. -/
theorem exchange_answered (w : World σ α) (k : Kind) (segs : List (Option Seg)) (v : Version) (s : St σ α)
    (hc : CanSend s.d segs) :
    ∃ e : Sent σ, (exchange w k segs v s).2 =
        ⟨{ s.d with messageCount := s.d.messageCount + 1 }, s.step + 1, s.sent ++ [e]⟩ ∧
      (exchange w k segs v s).1 = e.reply ∧ e.kind = k ∧
      e.reply = receive w.decoders ((w.env (s.step + 1)).transport e.bytes) := by
  unfold exchange M.bind
  simp only [newMessage_ok]
  unfold sign
  obtain ⟨m', hm, hs⟩ := sign_ok
    { header := newMsgHeader (-1) s.d.version.number s.d.dialogId (s.d.messageCount + 1)
      end_ := ⟨-1, s.d.messageCount + 1⟩, sigBegin := none, sigEnd := none, content := some segs, version := v, cache := [] }
    segs rfl s.d.sig (w.env (s.step + 1)).signTime
  simp only [hm]
  obtain ⟨segs', hc', hb, hwr⟩ := hs.content
  obtain ⟨q1, q2, q3⟩ := requestEncrypted_spec w k m' segs' hc' (by rw [hs.header]; rfl)
    { s with d := { s.d with messageCount := s.d.messageCount + 1 }, step := s.step + 1 }
  have hx := hs.writable
  have hd : m'.header.dialogId = s.d.dialogId := by rw [hs.header]; rfl
  simp only [hd, hwr] at q3
  unfold CanSend providerTexts at hc
  simp only [List.mem_cons, List.not_mem_nil, or_false, forall_eq_or_imp, forall_eq] at hx q3 hc
  rcases q3 with ⟨n, h1, h2⟩ | ⟨y, e, h1, h2, h3, h4, h5, h6, h7, h8⟩
  · exact absurd (by tauto) n
  · exact ⟨e, st_eq q1 q2 h1, h2, h3, h8⟩

/-- Nothing about the bank. -/
def bankPart (s : St σ α) := (s.d.bankParameterData, s.d.supportedSegments)

theorem opened_bankPart (w : World σ α) (m : Decrypted σ) (h : find m c!"HIBPA" = none) : Keeps bankPart (opened w m) := by
  unfold opened
  refine .bind ?_ fun _ => .bind ?_ fun _ => .bind ?_ fun _ => .bind (.lift _) fun _ => .bind (.lift _) fun _ => ?_
  · intro s
    unfold takeDialogId
    split <;> rfl
  · unfold parseBankParameterData
    rw [h]
    exact .lift _
  · unfold parseUserParameterData
    refine .bind ?_ fun _ => ?_
    · unfold parseUser
      split
      · exact .lift _
      · exact .bind (.lift _) fun _ => .modify fun _ => rfl
    · generalize m.segments c!"HIUPD" = xs
      induction xs with
      | nil => exact .lift _
      | cons x xs ih => exact .bind (.lift _) fun _ => .bind (.modify fun _ => rfl) fun _ => ih
  · intro s
    rcases updateSecurityFunction_spec w m s with he | ⟨fn, _, _, _, he⟩
    · rw [he]
    · rw [he]; rfl

end Verif.Dialog

namespace Verif.Bank

open GoLib Element Element.Spec Segment Segment.Spec Message Message.Spec Dialog Domain Transport Client

/-- The answers of the bank in one dialog: to the initialisation, to the request, and to the end. -/
structure Visit where
  opening : Answer
  page : Answer
  closing : Answer

/-- The bank has nothing new to say about itself, and does not refuse. -/
structure Visit.Good (v : Visit) : Prop where
  opening : v.opening.Good
  page : v.page.Good
  closing : v.closing.Good
  welcome : Welcoming v.opening.envelope v.opening.segments
  known : firstSaid Item.bankParameters v.opening.segments = none

/-- A dialog that was synchronised, knows the bank, has a PIN, and whose texts can be written. -/
structure Settled {σ α : Type} (d : Dialog σ α) : Prop where
  synchronised : d.clientSystemId ≠ c!"0"
  parameters : d.bankParameterData.parameters.version ≠ 0
  pin : d.crypto.key.pin ≠ []
  texts : ∀ t ∈ [d.bankId.id, d.clientId, d.clientSystemId, d.productName, d.productVersion,
    d.sig.securityFn, d.sig.controlRef, d.sig.clientSystemId, d.sig.key.keyName.bankId, d.sig.key.keyName.userId,
    d.sig.key.keyName.keyType, d.sig.key.pin, d.crypto.clientSystemId, d.crypto.key.keyName.bankId, d.crypto.key.keyName.userId,
    d.crypto.key.keyName.keyType], Latin1 t

theorem zero : Latin1 c!"0" := latin1_of_all (by decide)

theorem Settled.ready {σ α : Type} {d : Dialog σ α} (h : Settled d) : Ready { d with dialogId := c!"0" } := by
  refine ⟨h.pin, zero, fun t ht => h.texts t ?_⟩
  unfold providerTexts at ht
  exact List.mem_of_mem_drop (i := 5) ht

theorem Settled.opens {σ α : Type} {d : Dialog σ α} (h : Settled d) : CanOpen d := by
  refine ⟨h.ready, ?_⟩
  have ht := h.texts
  simp only [List.mem_cons, List.not_mem_nil, or_false, forall_eq_or_imp, forall_eq] at ht
  obtain ⟨h1, h2, h3, h4, h5, _⟩ := ht
  intro x hx
  simp only [initSegments, List.mem_cons, Option.some.injEq, List.not_mem_nil, reduceCtorEq, or_false] at hx
  have k1 : Latin1 c!"HKIDN" := latin1_of_all (by decide)
  have k2 : Latin1 c!"HKVVB" := latin1_of_all (by decide)
  have k3 : Latin1 c!"HKTAN" := latin1_of_all (by decide)
  have k4 : Latin1 c!"5A624F86A785F4024DD914404" := latin1_of_all (by decide)
  have k5 : Latin1 c!"0.3.2" := latin1_of_all (by decide)
  have k6 : Latin1 c!"4" := latin1_of_all (by decide)
  rcases hx with rfl | rfl | rfl
  · refine ⟨k1, ?_⟩
    simp [identificationSeg, newSegment, textsAll, Dialog.texts, bankIdentification, h1, h2, h3]
  · refine ⟨k2, ?_⟩
    simp only [preparationSeg, newSegment, textsAll, Dialog.texts, List.append_nil, List.nil_append, List.cons_append,
      List.mem_cons, List.not_mem_nil, or_false, forall_eq_or_imp, forall_eq]
    refine ⟨?_, ?_⟩
    · split
      · exact k4
      · exact h4
    · split
      · exact k5
      · exact h5
  · refine ⟨k3, ?_⟩
    simp [tanRequestV6, newSegment, textsAll, Dialog.texts, k1, k6]

theorem tan_writable : Writable (tanRequestV6 c!"HKIDN") := by
  refine ⟨latin1_of_all (by decide), ?_⟩
  simp only [tanRequestV6, newSegment, textsAll, Dialog.texts, List.append_nil, List.nil_append, List.cons_append,
    List.mem_cons, List.not_mem_nil, or_false, forall_eq_or_imp, forall_eq]
  exact ⟨latin1_of_all (by decide), latin1_of_all (by decide)⟩

variable {w : World BankSeg AccountInformation}

theorem accepts_of_sees (hv : w.views = views) {e : Envelope} {ps : List Placed} {m : Decrypted BankSeg} (hs : Sees e.header ps m)
    (hw : Welcoming e ps) : acceptable w m = .ok () := by
  have hneg : negotiable w m = .ok () := by
    rw [negotiable_iff]
    intro h1 h2
    unfold supportedFunctions
    cases ha : securityAck m with
    | none => exact absurd ha h2
    | some a =>
      unfold securityAck at ha
      rw [hs.acknowledgements] at ha
      rcases find_said hs.procedures with ⟨h3, _⟩ | ⟨x, fs, h3, h4, h5⟩
      · exact absurd h3 h1
      · obtain ⟨f, hf, y, hy, hxy⟩ := hw.function a ha fs h5
        obtain ⟨gs, h6, h7⟩ := commonFunctions_ok (procedures_named h5) a.params
        dsimp only
        rw [if_neg (List.ne_nil_of_mem hf), h3]
        dsimp only
        rw [hv, h4]
        cases gs with
        | nil => exact absurd rfl (h7 ⟨f, hf, y, hy, hxy⟩)
        | cons g gs => exact ⟨g, gs, h6⟩
  obtain ⟨hb, hu, _⟩ := readable_of_sees hv hs
  unfold acceptable parametersReadable
  rw [(dialogIdOf_iff m).2 (by rw [hs.received]; simp [Envelope.header]), hb, hu, (accountsReadable_iff w _).2, hneg,
    (announcement_iff w m).2, (checkAcks_iff m).2]
  · rfl
  · rw [hs.acknowledgements]; exact hw.accepted
  · intro x hx
    unfold find at hx
    rw [hs.announcement] at hx
    simp at hx
  · intro x hx
    have := List.mem_map_of_mem (f := viewOf views.account) hx
    rw [hs.accounts] at this
    obtain ⟨a, _, ha⟩ := List.mem_map.1 this
    exact ⟨a, by rw [hv, ha]⟩

theorem user_latin1 {ps : List Placed} (hg : ∀ p ∈ ps, p.Good) {u : UserParameters} (h : firstSaid Item.userParameters ps = some u) :
    Latin1 u.userId := by
  obtain ⟨p, hp, hu⟩ := List.exists_of_findSome?_eq_some h
  have hg := (hg p hp).item
  cases hi : p.item <;> rw [hi] at hu hg <;> simp only [Item.userParameters, reduceCtorEq, Option.some.injEq] at hu
  subst hu
  rename_i v d fs
  have := (hg.2.2.1 d.userId (by simp)).1
  split <;> exact this

/-- One dialog with such a bank. -/
theorem send_served (hd : w.decoders = decoders) (hv : w.views = views) {j : Job} (hj : ∀ x, some x ∈ j.segments → Writable x)
    {v : Visit} (hg : v.Good) (hr : ¬ v.page.Refuses) {s : St BankSeg AccountInformation}
    (h1 : ∀ b, (w.env (s.step + 1)).transport b = .ok (v.opening.bytes, true))
    (h2 : ∀ b, (w.env (s.step + 2)).transport b = .ok (v.page.bytes, true))
    (h3 : ∀ b, (w.env (s.step + 3)).transport b = .ok (v.closing.bytes, true)) (hs : Settled s.d) :
    ∃ m g1 g2 g3, (sendMessage w j s).1 = .ok m ∧ Sees v.page.envelope.header v.page.segments m ∧ Readable m ∧
      (sendMessage w j s).2.sent = s.sent ++ [g1, g2, g3] ∧ g1.kind = .init ∧ g2.kind = .job ∧ Answered g2 v.page ∧
      g3.kind = .end_ ∧ g3.reply ≠ .panic ∧ (sendMessage w j s).2.step = s.step + 3 ∧ Settled (sendMessage w j s).2.d ∧
      (sendMessage w j s).2.d.supportedSegments = s.d.supportedSegments := by
  have hens : ensureClientSystemId w s = (.ok (), s) := by
    unfold ensureClientSystemId
    rw [if_neg hs.synchronised]
  -- the initialisation
  obtain ⟨g1, a1, a2, a3, a4⟩ := exchange_answered w .init (initSegments s.d) s.d.version
    { s with d := { s.d with dialogId := c!"0", messageCount := 0 } } ((canSend_iff _ _).2 hs.opens)
  simp only [h1, hd] at a4
  obtain ⟨m1, b1, b2⟩ := C95_answer hg.opening.envelope hg.opening.segments hg.opening.size
  have a5 : g1.reply = .ok m1 := a4.trans b1
  have hopen : open_ w s = opened w m1 (afterInit s g1) := by
    have he : open_ w s = ((exchange w .init (initSegments s.d) s.d.version).bind fun m => opened w m)
      { s with d := { s.d with dialogId := c!"0", messageCount := 0 } } := rfl
    rw [he, M.bind_of_ok (a2.trans a5), a1]
    rfl
  have hok : (opened w m1 (afterInit s g1)).1 = .ok () := by
    rw [opened_result]
    exact accepts_of_sees hv b2 hg.welcome
  have hout := opened_outer w m1 (afterInit s g1)
  have hbank := opened_bankPart w m1 (by
    rcases find_said b2.bank with ⟨k, _⟩ | ⟨x, b, _, _, k⟩
    · exact k
    · rw [hg.known] at k; cases k) (afterInit s g1)
  have hread : Readable m1 := receive_readable b1
  have hready : Ready (opened w m1 (afterInit s g1)).2.d := opened_ready hok hread hs.ready
  have hknow := (opened_reads w m1).knows (afterInit s g1)
  have hclient : Latin1 (opened w m1 (afterInit s g1)).2.d.clientId := by
    have := congrArg Knowledge.clientId hknow
    rw [if_neg (by rw [b2.received]; simp [Envelope.header])] at this
    simp only [knows, Knowledge.update, (readable_of_sees hv b2).2.2.2.1] at this
    rw [this]
    cases hu : firstSaid Item.userParameters v.opening.segments with
    | none => exact hs.texts _ (by simp [afterInit])
    | some u => exact user_latin1 hg.opening.segments hu
  generalize hT : (opened w m1 (afterInit s g1)).2 = T at hout hbank hready hclient
  simp only [outer, frame, afterInit, Prod.mk.injEq, bankPart] at hout hbank
  obtain ⟨o1, o2, o3, o4, o5, o6, o7, o8, o9, o10, o11, o12⟩ := hout
  -- the request
  obtain ⟨g2, c1, c2, c3, c4⟩ := exchange_answered w .job j.segments j.version T ((canSend_iff _ _).2 ⟨hready, hj⟩)
  rw [o2, h2, hd] at c4
  obtain ⟨m2, d1, d2⟩ := C95_answer hg.page.envelope hg.page.segments hg.page.size
  have c5 : g2.reply = .ok m2 := c4.trans d1
  have hack : checkAcks m2 = .ok () := (checkAcks_iff m2).2 ((accepted_iff d2.acknowledgements).2 hr)
  have hjob : job w j T = (.ok m2, ⟨{ T.d with messageCount := T.d.messageCount + 1 }, T.step + 1, T.sent ++ [g2]⟩) := by
    unfold job
    rw [M.bind_of_ok (c2.trans c5), c1]
    simp only [M.bind, M.lift, hack]
  -- the end
  obtain ⟨g3, e1, e2, e3, e4⟩ := exchange_answered w .end_ (endSegments T.d.dialogId) T.d.version
    ⟨{ T.d with messageCount := T.d.messageCount + 1 }, T.step + 1, T.sent ++ [g2]⟩ (by
      rw [canSend_iff, endSegments, dialogEnd_writable]
      exact ⟨hready, hready.2.1⟩)
  simp only [o2] at e4
  rw [h3, hd] at e4
  obtain ⟨m3, f1, f2⟩ := C95_answer hg.closing.envelope hg.closing.segments hg.closing.size
  have e5 : g3.reply = .ok m3 := e4.trans f1
  have hend : ∃ x, end_ w ⟨{ T.d with messageCount := T.d.messageCount + 1 }, T.step + 1, T.sent ++ [g2]⟩ =
      (x, ⟨{ T.d with messageCount := T.d.messageCount + 1 + 1 }, T.step + 1 + 1, T.sent ++ [g2] ++ [g3]⟩) ∧ x ≠ .panic := by
    refine ⟨checkAcks m3, ?_, by unfold checkAcks; split <;> simp⟩
    have he : ∀ s, end_ w s = ((exchange w .end_ (endSegments s.d.dialogId) s.d.version).bind fun m => M.lift (checkAcks m)) s :=
      fun _ => rfl
    rw [he, M.bind_of_ok (e2.trans e5), e1]
    rfl
  obtain ⟨x, hend, hx⟩ := hend
  have hsend : sendMessage w j s =
      (.ok m2, ⟨{ T.d with messageCount := T.d.messageCount + 1 + 1 }, T.step + 1 + 1, T.sent ++ [g2] ++ [g3]⟩) := by
    unfold sendMessage Dialog.init
    rw [M.bind_assoc]
    unfold M.bind
    rw [hens]
    simp only
    have : open_ w s = (.ok (), T) := by rw [hopen, ← hT, ← hok]
    rw [this]
    simp only [M.deferred, hjob, hend]
  rw [hsend]
  refine ⟨m2, g1, g2, g3, rfl, d2, receive_readable d1, ?_, a3, c3, c4, e3, by rw [e5]; simp, ?_, ?_, ?_⟩
  · simp only [o1, List.append_assoc, List.cons_append, List.nil_append]
  · simp only [o2]
  · have ht := hs.texts
    simp only [List.mem_cons, List.not_mem_nil, or_false, forall_eq_or_imp, forall_eq] at ht
    refine ⟨?_, ?_, hready.1, ?_⟩
    · simp only [o6]; exact hs.synchronised
    · simp only [hbank.1]; exact hs.parameters
    · have hp := hready.2.2
      simp only [providerTexts, List.mem_cons, List.not_mem_nil, or_false, forall_eq_or_imp, forall_eq] at hp ⊢
      simp only [o4, o6, o9, o10]
      refine ⟨ht.1, hclient, ht.2.2.1, ht.2.2.2.1, ht.2.2.2.2.1, hp⟩
  · exact hbank.2

end Verif.Bank

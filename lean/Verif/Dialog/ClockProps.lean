import Verif.Dialog.OrderProps
import Verif.Dialog.DeliveryProps

/-
C137: what depends on the clock.
-/

namespace Verif.Dialog

open GoLib Token.Spec Element Element.Spec Segment Message Domain Transport

variable {σ α : Type}

/-! ## Specification -/

/-- A moment that can be written with eight and six digits. -/
def OnCalendar (t : Time.Civil) : Prop :=
  0 ≤ t.year ∧ t.year ≤ 9999 ∧ ExistingDate t.year t.month t.day ∧ TimeOfDay t.hour t.min t.sec

/-- Date and time as they stand in a signature header or an encryption header. -/
def stampBytes (t : Time.Civil) : Bytes := b!"1:" ++ Time.format8 t ++ b!":" ++ Time.format6 t

/-- Two messages that are the same but for the time of encryption and the time of signature. -/
def SameButTimes (a b : Bytes) : Prop :=
  ∃ (x y z : Bytes) (e e' t t' : Time.Civil), OnCalendar e ∧ OnCalendar e' ∧ OnCalendar t ∧ OnCalendar t' ∧
    a = x ++ stampBytes e ++ y ++ stampBytes t ++ z ∧ b = x ++ stampBytes e' ++ y ++ stampBytes t' ++ z

/-- The same world with other clocks. -/
def reclock (signing encrypting : Nat → Time.Civil) (w : World σ α) : World σ α :=
  { w with env := fun n => { w.env n with signTime := signing n, encryptTime := encrypting n } }

/-- The clocks of the world show years of four digits. -/
def ClocksRun (w : World σ α) : Prop := ∀ n, OnCalendar (w.env n).signTime ∧ OnCalendar (w.env n).encryptTime

/-- The bank, and whatever stands between, answers two messages that differ in the times alike. -/
def TimeBlind (w : World σ α) : Prop :=
  ∀ n a b, SameButTimes a b → (w.env n).transport a = (w.env n).transport b

/-- Two states with the same dialog that have sent the same messages but for the times. -/
structure SameTalk (s t : St σ α) : Prop where
  dialog : t.d = s.d
  step : t.step = s.step
  sent : List.Forall₂ (fun a b => a.kind = b.kind ∧ a.reply = b.reply ∧ (a.bytes = b.bytes ∨ SameButTimes a.bytes b.bytes))
    s.sent t.sent

/-! ## The bytes of a time -/

theorem stamp_length {t : Time.Civil} (h : OnCalendar t) : (stampBytes t).length = 17 := by
  obtain ⟨h1, h2, h3, h4⟩ := h
  unfold stampBytes
  simp only [List.length_append, (format8_spec h1 h2 h3).1, (format6_spec h4).1]
  rfl

theorem format6_digits (t : Time.Civil) : DigitString (Time.format6 t) :=
  digits_append (digits_append (pad_digits _ _) (pad_digits _ _)) (pad_digits _ _)

theorem stamp_last {c : Byte} (hc : ¬ Digit c) (t : Time.Civil) (x : Bytes) : (x ++ stampBytes t).getLast? ≠ some c := by
  obtain ⟨h1, h2⟩ := format6_digits t
  unfold stampBytes
  rw [← List.append_assoc, List.getLast?_append_of_ne_nil _ h1]
  intro h
  exact hc (h2 c (List.mem_of_getLast? h))

theorem securityDate_bytes (t : Time.Civil) : (securityDate t).marshal = .ok (stampBytes t) := by
  have h1 : marshalText c!"1" = .ok b!"1" := by decide
  simp only [securityDate, DE.marshal, DE.marshalAll, DE.marshalOpt, h1, Outcome.bind, Outcome.map', join, marshalDate, marshalTime]
  have := trimRight_of_last (stamp_last (c := 58) (by unfold Digit; decide) t [])
  simp only [stampBytes, List.nil_append, List.append_assoc, List.cons_append] at this ⊢
  simp only [this]

/-! ## The bytes of a segment with a time -/

theorem trimRight_keeps {c : Byte} {x : Bytes} (h : x.getLast? ≠ some c) (y : Bytes) :
    trimRight c (x ++ y) = x ++ trimRight c y := by
  have hy : ∀ y : Bytes, ∃ k, y = trimRight c y ++ List.replicate k c := fun y => by
    obtain ⟨k, hk⟩ := trimRight_spec c y
    exact ⟨k, hk⟩
  obtain ⟨k, hk⟩ := hy y
  conv_lhs => rw [hk, ← List.append_assoc, trimRight_replicate]
  refine trimRight_of_last ?_
  by_cases he : trimRight c y = []
  · rw [he, List.append_nil]; exact h
  · rw [List.getLast?_append_of_ne_nil _ he]; exact trimRight_getLast? c y

theorem join_middle (c : Byte) (h : Bytes) (a : List Bytes) (s : Bytes) (b : List Bytes) :
    join c (h :: (a ++ s :: b)) = join c (h :: a) ++ [c] ++ s ++ (b.map fun x => c :: x).flatten := by
  induction a generalizing h with
  | nil =>
    simp only [List.nil_append, join]
    have : ∀ s, join c (s :: b) = s ++ (b.map fun x => c :: x).flatten := by
      induction b with
      | nil => simp [join]
      | cons x b ih => intro s; simp only [join, ih x, List.map_cons, List.flatten_cons, List.cons_append]
    rw [this]
    simp
  | cons x a ih =>
    simp only [List.cons_append] at ih ⊢
    simp only [join, ih x]
    simp

theorem marshalAll_append (xs ys : List (Option DE)) : DE.marshalAll (xs ++ ys) =
    (DE.marshalAll xs).bind fun a => (DE.marshalAll ys).map' fun b => a ++ b := by
  induction xs with
  | nil =>
    simp only [List.nil_append, DE.marshalAll, Outcome.bind]
    cases DE.marshalAll ys <;> rfl
  | cons x xs ih =>
    simp only [List.cons_append, DE.marshalAll, ih]
    cases DE.marshalOpt x <;> cases DE.marshalAll xs <;> cases DE.marshalAll ys <;> rfl

/-- What stands before and behind the time does not depend on the time, and neither does failure. -/
theorem stamped_seg (h : Header) (xs ys : List (Option DE)) : ∃ o : Outcome (Bytes × Bytes), ∀ t,
    (Seg.mk h (xs ++ some (securityDate t) :: ys)).marshal = o.map' fun p => p.1 ++ stampBytes t ++ p.2 := by
  refine ⟨h.marshal.bind fun hb => (DE.marshalAll xs).bind fun a => (DE.marshalAll ys).map' fun b =>
    (join 43 (hb :: a) ++ [43], trimRight 43 (b.map fun x => 43 :: x).flatten ++ [39]), fun t => ?_⟩
  unfold Seg.marshal
  simp only [marshalAll_append, DE.marshalAll, DE.marshalOpt, securityDate_bytes]
  cases h.marshal <;> cases DE.marshalAll xs <;> cases DE.marshalAll ys <;> simp only [Outcome.bind, Outcome.map']
  rename_i hb a b
  rw [join_middle, trimRight_keeps (stamp_last (by unfold Digit; decide) t _)]
  simp

theorem stamped_encryption (v : Version) (fn id : Str) (k : KeyName) : ∃ o : Outcome (Bytes × Bytes), ∀ t,
    (encryptionHeader v fn id k t).marshal = o.map' fun p => p.1 ++ stampBytes t ++ p.2 := by
  cases v with
  | hbci220 => exact stamped_seg (newHeader c!"HNVSK" 998 2) [some (.alnum c!"998" 3), some (.alnum c!"1" 3), some (securityId id)] _
  | fints300 => exact stamped_seg (newHeader c!"HNVSK" 998 3) [some (securityProfile (profileFor fn)), some (.code c!"998" 3 [c!"4", c!"998"]),
       some (.code c!"1" 3 [c!"1", c!"4"]), some (securityId id)] _

theorem stamped_signature (v : Version) (fn ref id : Str) (k : KeyName) (n : Int) : ∃ o : Outcome (Bytes × Bytes), ∀ t,
    ((signatureHeader v fn ref id k t).setPosition n).marshal = o.map' fun p => p.1 ++ stampBytes t ++ p.2 := by
  cases v with
  | hbci220 => exact stamped_seg ((newHeader c!"HNSHK" 2 3).setPosition n) [some (.alnum fn 3), some (.alnum ref 14), some (.alnum c!"1" 3),
      some (.alnum c!"1" 3), some (securityId id), some (.number 0 16)] _
  | fints300 => exact stamped_seg ((newHeader c!"HNSHK" 2 4).setPosition n) [some (securityProfile (profileFor fn)),
       some (.code fn 3 (newCodeSet [c!"1", c!"2", c!"999", fn])), some (.alnum ref 14),
       some (.code c!"1" 3 [c!"1", c!"2"]), some (.code c!"1" 3 [c!"1", c!"3", c!"4"]),
       some (securityId id), some (.number 0 16)] _

/-! ## The bytes of a message -/

theorem encryptedData_ok {d : Bytes} (h : d.getLast? = some 39) :
    (encryptedData d).marshal = .ok (b!"HNVSD:999:1+@" ++ itoa d.length ++ b!"@" ++ d ++ b!"'") := by
  obtain ⟨b, hb⟩ := (seg_ok_iff _).2 (encryptedData_writable d)
  rw [hb, encryptedData_bytes h hb]

theorem marshal_last {s : Seg} {b : Bytes} (h : s.marshal = .ok b) : b.getLast? = some 39 := by
  unfold Seg.marshal at h
  obtain ⟨_, _, h⟩ := Dialog.bind_ok h
  obtain ⟨_, _, rfl⟩ := map_ok h
  simp

/-- What stands around the two times of a secured message does not depend on the clocks, and neither does failure. -/
theorem sealed_form (h : MsgHeader) (q : MsgEnd) (segs : List (Option Seg)) (v : Version) (p : SignatureProvider)
    (c : CryptoProvider) : ∃ o : Outcome (Bytes × Bytes × Bytes), ∀ t t', OnCalendar t → OnCalendar t' →
    ((BasicMessage.sign ⟨h, q, none, none, some segs, v, []⟩ p t).bind fun m => (m.encrypt c t').bind fun x =>
      x.msg.marshal.map' fun r => r.1) = o.map' fun r => r.1 ++ stampBytes t' ++ r.2.1 ++ stampBytes t ++ r.2.2 := by
  obtain ⟨os, hs⟩ := stamped_signature v p.securityFn p.controlRef p.clientSystemId p.key.keyName 2
  obtain ⟨oe, he⟩ := stamped_encryption v c.securityFn c.clientSystemId c.key.keyName
  unfold BasicMessage.sign BasicMessage.setPositions
  simp only [positionOpt, Outcome.bind, show (1 : Int) + 1 = 2 from rfl]
  unfold BasicMessage.encrypt
  simp only [marshalSegOpt, hs]
  cases os with
  | err => exact ⟨.err, fun _ _ _ _ => rfl⟩
  | panic => exact ⟨.panic, fun _ _ _ _ => rfl⟩
  | ok sp =>
  cases hm : marshalSegs (positionAll 2 segs).1 with
  | err => exact ⟨.err, fun _ _ _ _ => rfl⟩
  | panic => exact ⟨.panic, fun _ _ _ _ => rfl⟩
  | ok b =>
  cases hse : ((signatureEnd v p.controlRef p.key.pin).setPosition ((positionAll 2 segs).2 + 1)).marshal with
  | err => exact ⟨.err, fun _ _ _ _ => rfl⟩
  | panic => exact ⟨.panic, fun _ _ _ _ => rfl⟩
  | ok se =>
  by_cases hp : c.key.pin = []
  · exact ⟨.err, fun _ _ _ _ => by simp [Outcome.bind, Outcome.map', CryptoProvider.encrypt, hp]⟩
  simp only [Outcome.bind, Outcome.map', CryptoProvider.encrypt, hp, if_false, BasicMessage.marshal, BasicMessage.setSize,
    BasicMessage.bytes, marshalSegs, marshalSegOpt, he]
  have hdat : ∀ t, OnCalendar t → (encryptedData (sp.1 ++ stampBytes t ++ sp.2 ++ b ++ se)).marshal = .ok
      (b!"HNVSD:999:1+@" ++ itoa (sp.1.length + 17 + sp.2.length + b.length + se.length : Nat) ++ b!"@" ++
        (sp.1 ++ stampBytes t ++ sp.2 ++ b ++ se) ++ b!"'") := by
    intro t ht
    have hl : (sp.1 ++ stampBytes t ++ sp.2 ++ b ++ se).getLast? = some 39 := by
      rw [List.getLast?_append_of_ne_nil, marshal_last hse]
      intro e
      rw [e] at hse
      simpa using marshal_last hse
    rw [encryptedData_ok hl]
    simp only [List.length_append, stamp_length ht]
  cases h0 : Seg.marshal (MsgHeader.seg ⟨1, h.size, h.hbciVersion, h.dialogId, h.number, h.ref⟩) with
  | err => exact ⟨.err, fun _ _ _ _ => rfl⟩
  | panic => exact ⟨.panic, fun _ _ _ _ => rfl⟩
  | ok b0 =>
  cases oe with
  | err => exact ⟨.err, fun _ _ _ _ => rfl⟩
  | panic => exact ⟨.panic, fun _ _ _ _ => rfl⟩
  | ok ep =>
  cases h3 : Seg.marshal (MsgEnd.seg ⟨(positionAll 2 segs).2 + 1 + 1, q.number⟩) with
  | err => exact ⟨.err, fun t _ ht _ => by simp only [hdat t ht]⟩
  | panic => exact ⟨.panic, fun t _ ht _ => by simp only [hdat t ht]⟩
  | ok b3 =>
  have size : ∃ n : Nat, ∀ t t', OnCalendar t → OnCalendar t' → (b0 ++ [] ++ (ep.1 ++ stampBytes t' ++ ep.2 ++
      (b!"HNVSD:999:1+@" ++ itoa (sp.1.length + 17 + sp.2.length + b.length + se.length : Nat) ++ b!"@" ++
        (sp.1 ++ stampBytes t ++ sp.2 ++ b ++ se) ++ b!"'" ++ [])) ++ [] ++ b3).length = n := by
    refine ⟨b0.length + (ep.1.length + 17 + ep.2.length + (13 +
      (itoa (sp.1.length + 17 + sp.2.length + b.length + se.length : Nat)).length + 1 +
        (sp.1.length + 17 + sp.2.length + b.length + se.length) + 1)) + b3.length, fun t t' ht ht' => ?_⟩
    simp only [List.length_append, stamp_length ht, stamp_length ht', List.length_cons, List.length_nil]
    omega
  obtain ⟨n, size⟩ := size
  cases h1 : Seg.marshal (MsgHeader.seg ⟨1, n, h.hbciVersion, h.dialogId, h.number, h.ref⟩) with
  | err => exact ⟨.err, fun t t' ht ht' => by simp only [hdat t ht, size t t' ht ht', h1, h3, if_true]⟩
  | panic => exact ⟨.panic, fun t t' ht ht' => by simp only [hdat t ht, size t t' ht ht', h1, h3, if_true]⟩
  | ok b1 =>
    refine ⟨.ok (b1 ++ ep.1, ep.2 ++ b!"HNVSD:999:1+@" ++
      itoa (sp.1.length + 17 + sp.2.length + b.length + se.length : Nat) ++ b!"@" ++ sp.1, sp.2 ++ b ++ se ++ b!"'" ++ b3),
      fun t t' ht ht' => ?_⟩
    simp only [hdat t ht, size t t' ht ht', h1, h3, if_true, Outcome.ok.injEq]
    simp

/-! ## Pieces of program -/

/-- Started alike, the two programs give the same and end alike. -/
def Tick {β : Type} (m m' : M σ α β) : Prop := ∀ s t, SameTalk s t → (m s).1 = (m' t).1 ∧ SameTalk (m s).2 (m' t).2

theorem Tick.bind {β γ : Type} {m m' : M σ α β} {g g' : β → M σ α γ} (h1 : Tick m m') (h2 : ∀ b, Tick (g b) (g' b)) :
    Tick (m.bind g) (m'.bind g') := by
  intro s t h
  obtain ⟨e, h'⟩ := h1 s t h
  unfold M.bind
  rcases hs : m s with ⟨r, s'⟩
  rcases ht : m' t with ⟨r', t'⟩
  rw [hs, ht] at e h'
  simp only at e h'
  subst e
  cases r with
  | ok b => exact h2 b s' t' h'
  | err => exact ⟨rfl, h'⟩
  | panic => exact ⟨rfl, h'⟩

theorem Tick.deferred {β : Type} {m m' : M σ α β} {l l' : M σ α Unit} (h1 : Tick m m') (h2 : Tick l l') :
    Tick (M.deferred m l) (M.deferred m' l') := by
  intro s t h
  obtain ⟨e, h'⟩ := h1 s t h
  obtain ⟨e', h''⟩ := h2 _ _ h'
  unfold M.deferred
  simp only
  rw [← e, ← e']
  exact ⟨rfl, h''⟩

theorem Tick.lift {β : Type} (o : Outcome β) : Tick (M.lift (σ := σ) (α := α) o) (M.lift o) := fun _ _ h => ⟨rfl, h⟩

theorem Tick.modify (f : Dialog σ α → Dialog σ α) : Tick (M.modify f) (M.modify f) :=
  fun _ _ h => ⟨rfl, congrArg f h.dialog, h.step, h.sent⟩

/-- A program that looks at the dialog. -/
theorem Tick.look {β : Type} {m m' : Dialog σ α → M σ α β} (h : ∀ d, Tick (m d) (m' d)) :
    Tick (fun s => m s.d s) (fun s => m' s.d s) := by
  intro s t hs
  simp only [hs.dialog]
  exact h _ s t hs

/-! ## Sending -/

/-- What becomes of a signed message depends on its bytes. -/
theorem requestEncrypted_bytes (w : World σ α) (k : Kind) (m : BasicMessage) (s : St σ α) :
    match ((m.encrypt s.d.crypto (w.env s.step).encryptTime).bind fun x => x.msg.marshal.map' fun r => r.1) with
    | .ok b => ∃ e : Sent σ, e.kind = k ∧ e.bytes = b ∧ e.reply = receive w.decoders ((w.env s.step).transport b) ∧
        requestEncrypted w k m s = (e.reply, { s with sent := s.sent ++ [e] })
    | .err => requestEncrypted w k m s = (.err, s)
    | .panic => requestEncrypted w k m s = (.panic, s) := by
  unfold requestEncrypted request
  cases h1 : m.encrypt s.d.crypto (w.env s.step).encryptTime with
  | err => simp
  | panic => simp
  | ok x =>
    cases h2 : x.msg.marshal with
    | err => simp [h2]
    | panic => simp [h2]
    | ok r => simp only [Outcome.bind, Outcome.map', h2]; exact ⟨⟨k, m, x.msg, r.1, _⟩, rfl, rfl, rfl, rfl⟩

section

variable {w : World σ α} {f g : Nat → Time.Civil} (hw : ClocksRun w) (hf : ∀ n, OnCalendar (f n)) (hg : ∀ n, OnCalendar (g n))
  (hb : TimeBlind w)
include hw hf hg hb

theorem tick_request (k : Kind) (h : MsgHeader) (q : MsgEnd) (segs : List (Option Seg)) (v : Version) (p : SignatureProvider)
    {m m' : BasicMessage} {s t : St σ α} (hs : SameTalk s t)
    (h1 : BasicMessage.sign ⟨h, q, none, none, some segs, v, []⟩ p (w.env s.step).signTime = .ok m)
    (h2 : BasicMessage.sign ⟨h, q, none, none, some segs, v, []⟩ p (f s.step) = .ok m') :
    (requestEncrypted w k m s).1 = (requestEncrypted (reclock f g w) k m' t).1 ∧
      SameTalk (requestEncrypted w k m s).2 (requestEncrypted (reclock f g w) k m' t).2 := by
  obtain ⟨o, ho⟩ := sealed_form h q segs v p s.d.crypto
  have e1 := ho _ _ (hw s.step).1 (hw s.step).2
  have e2 := ho _ _ (hf s.step) (hg s.step)
  rw [h1] at e1
  rw [h2] at e2
  simp only [Outcome.bind] at e1 e2
  have r1 := requestEncrypted_bytes w k m s
  have r2 := requestEncrypted_bytes (reclock f g w) k m' t
  rw [hs.dialog, hs.step] at r2
  simp only [reclock] at r2
  simp only [Outcome.bind] at r1 r2
  rw [e1] at r1
  rw [e2] at r2
  cases o with
  | err =>
    simp only [Outcome.map'] at r1 r2
    rw [r1, show requestEncrypted (reclock f g w) k m' t = (.err, t) from r2]
    exact ⟨rfl, hs⟩
  | panic =>
    simp only [Outcome.map'] at r1 r2
    rw [r1, show requestEncrypted (reclock f g w) k m' t = (.panic, t) from r2]
    exact ⟨rfl, hs⟩
  | ok r =>
    simp only [Outcome.map'] at r1 r2
    obtain ⟨a, a1, a2, a3, a4⟩ := r1
    obtain ⟨b, b1, b2, b3, b4⟩ := r2
    have same : SameButTimes a.bytes b.bytes :=
      ⟨r.1, r.2.1, r.2.2, _, _, _, _, (hw s.step).2, hg s.step, (hw s.step).1, hf s.step, a2, b2⟩
    have hr : a.reply = b.reply := by
      rw [a3, b3, ← a2, ← b2, hb s.step _ _ same]
    rw [a4, show requestEncrypted (reclock f g w) k m' t = (b.reply, ⟨s.d, s.step, t.sent ++ [b]⟩) from b4]
    exact ⟨hr, rfl, rfl, List.rel_append hs.sent (.cons ⟨a1.trans b1.symm, hr, Or.inr same⟩ .nil)⟩

theorem tick_exchange (k : Kind) (segs : List (Option Seg)) (v : Version) :
    Tick (exchange w k segs v) (exchange (reclock f g w) k segs v) := by
  intro s t hs
  unfold exchange M.bind
  simp only [newMessage_ok]
  unfold sign
  have hs' : SameTalk { s with d := { s.d with messageCount := s.d.messageCount + 1 }, step := s.step + 1 }
      { t with d := { t.d with messageCount := t.d.messageCount + 1 }, step := t.step + 1 } :=
    ⟨by simp [hs.dialog], by simp [hs.step], hs.sent⟩
  obtain ⟨m, hm, _⟩ := sign_ok ⟨newMsgHeader (-1) s.d.version.number s.d.dialogId (s.d.messageCount + 1),
    ⟨-1, s.d.messageCount + 1⟩, none, none, some segs, v, []⟩ segs rfl s.d.sig (w.env (s.step + 1)).signTime
  obtain ⟨n, hn, _⟩ := sign_ok ⟨newMsgHeader (-1) s.d.version.number s.d.dialogId (s.d.messageCount + 1),
    ⟨-1, s.d.messageCount + 1⟩, none, none, some segs, v, []⟩ segs rfl s.d.sig (f (s.step + 1))
  have key := tick_request hw hf hg hb k _ _ segs v s.d.sig hs' hm hn
  simp only [hs.dialog, hs.step] at key ⊢
  rw [hm, show ((reclock f g w).env (s.step + 1)).signTime = f (s.step + 1) from rfl, hn]
  exact key

theorem tick_syncRequest : Tick (syncRequest w) (syncRequest (reclock f g w)) := by
  intro s t hs
  unfold syncRequest M.bind
  simp only [newMessage_ok]
  unfold sign
  have hs' : SameTalk { s with d := { s.d with messageCount := s.d.messageCount + 1, crypto := { s.d.crypto with clientSystemId := c!"0" } }, step := s.step + 1 }
      { t with d := { t.d with messageCount := t.d.messageCount + 1, crypto := { t.d.crypto with clientSystemId := c!"0" } }, step := t.step + 1 } :=
    ⟨by simp [hs.dialog], by simp [hs.step], hs.sent⟩
  obtain ⟨m, hm, _⟩ := sign_ok ⟨newMsgHeader (-1) s.d.version.number s.d.dialogId (s.d.messageCount + 1),
    ⟨-1, s.d.messageCount + 1⟩, none, none, some (syncSegments s.d), s.d.version, []⟩ _ rfl s.d.sig (w.env (s.step + 1)).signTime
  obtain ⟨n, hn, _⟩ := sign_ok ⟨newMsgHeader (-1) s.d.version.number s.d.dialogId (s.d.messageCount + 1),
    ⟨-1, s.d.messageCount + 1⟩, none, none, some (syncSegments s.d), s.d.version, []⟩ _ rfl s.d.sig (f (s.step + 1))
  have key := tick_request hw hf hg hb .sync _ _ _ _ s.d.sig hs' hm hn
  simp only [hs.dialog, hs.step] at key ⊢
  rw [hm, show ((reclock f g w).env (s.step + 1)).signTime = f (s.step + 1) from rfl, hn]
  exact key

end

theorem tick_exchangePlain (w : World σ α) (f g : Nat → Time.Civil) (k : Kind) (segs : List (Option Seg)) (v : Version) :
    Tick (exchangePlain w k segs v) (exchangePlain (reclock f g w) k segs v) := by
  intro s t hs
  unfold exchangePlain M.bind
  simp only [newMessage_ok, M.lift]
  have hs' : SameTalk { s with d := { s.d with messageCount := s.d.messageCount + 1 }, step := s.step + 1 }
      { t with d := { t.d with messageCount := t.d.messageCount + 1 }, step := t.step + 1 } :=
    ⟨by simp [hs.dialog], by simp [hs.step], hs.sent⟩
  simp only [hs.dialog, hs.step] at hs' ⊢
  cases BasicMessage.setPositions _ with
  | err => exact ⟨rfl, hs'⟩
  | panic => exact ⟨rfl, hs'⟩
  | ok m =>
    simp only
    unfold request
    cases m.marshal with
    | err => exact ⟨rfl, hs'⟩
    | panic => exact ⟨rfl, hs'⟩
    | ok r => exact ⟨rfl, hs'.dialog, hs'.step, List.rel_append hs.sent (.cons ⟨rfl, rfl, Or.inl rfl⟩ .nil)⟩

/-! ## The dialog's methods -/

theorem tick_takeDialogId (m : Decrypted σ) : Tick (takeDialogId (α := α) m) (takeDialogId m) := by
  unfold takeDialogId
  cases m.header.dialogId with
  | none => exact fun s t h => ⟨rfl, h⟩
  | some i => exact .modify fun d => { d with dialogId := i }

theorem tick_update (w : World σ α) (f g : Nat → Time.Civil) (m : Decrypted σ) :
    Tick (updateSecurityFunction w m) (updateSecurityFunction (reclock f g w) m) := by
  intro s t hs
  unfold updateSecurityFunction
  rw [show supportedFunctions (reclock f g w) m = supportedFunctions w m from rfl, hs.step]
  simp only [show ((reclock f g w).env s.step).mapOrder = (w.env s.step).mapOrder from rfl]
  split
  · exact ⟨rfl, hs⟩
  · split
    · exact ⟨rfl, hs⟩
    · exact ⟨rfl, hs⟩
    · split
      · exact ⟨rfl, hs⟩
      · refine ⟨rfl, ?_⟩
        simp only [hs.dialog]
        split
        · exact hs
        · exact ⟨rfl, rfl, hs.sent⟩

theorem tick_accounts (w : World σ α) (f g : Nat → Time.Civil) (xs : List (Decoded σ)) :
    Tick (parseAccounts w xs) (parseAccounts (reclock f g w) xs) := by
  induction xs with
  | nil => exact .lift _
  | cons x xs ih =>
    unfold parseAccounts
    exact .bind (.lift _) fun a => .bind (.modify _) fun _ => ih

theorem tick_user (w : World σ α) (f g : Nat → Time.Civil) (m : Decrypted σ) :
    Tick (parseUserParameterData w m) (parseUserParameterData (reclock f g w) m) := by
  refine .bind ?_ fun _ => tick_accounts w f g _
  unfold parseUser
  split
  · exact .lift _
  · exact .bind (.lift _) fun _ => .modify _

theorem tick_bank (w : World σ α) (f g : Nat → Time.Civil) (m : Decrypted σ) :
    Tick (parseBankParameterData w m) (parseBankParameterData (reclock f g w) m) := by
  have h : Tick (parsePinTan w m) (parsePinTan (reclock f g w) m) := by
    unfold parsePinTan
    split
    · exact .lift _
    · exact .bind (.lift _) fun _ => .modify _
  unfold parseBankParameterData
  split
  · exact .lift _
  · exact .bind (.lift _) fun _ => .bind (.modify _) fun _ => .bind (.lift _) fun _ => .bind (.modify _) fun _ =>
      .bind h fun _ => .modify _

section

variable {w : World σ α} {f g : Nat → Time.Civil} (hw : ClocksRun w) (hf : ∀ n, OnCalendar (f n)) (hg : ∀ n, OnCalendar (g n))
  (hb : TimeBlind w)
include hw hf hg hb

theorem tick_end : Tick (end_ w) (end_ (reclock f g w)) :=
  .look (m := fun d => (exchange w .end_ [some (dialogEndSeg d.dialogId)] d.version).bind fun m => M.lift (checkAcks m))
    (m' := fun d => (exchange (reclock f g w) .end_ [some (dialogEndSeg d.dialogId)] d.version).bind fun m => M.lift (checkAcks m))
    fun _ => .bind (tick_exchange hw hf hg hb _ _ _) fun _ => .lift _

theorem tick_sync : Tick (syncClientSystemId w) (syncClientSystemId (reclock f g w)) := by
  refine (tick_syncRequest hw hf hg hb).bind fun m => (tick_takeDialogId m).bind fun _ => (Tick.lift _).bind fun _ =>
    (tick_update w f g m).bind fun _ => .bind ?_ fun _ => (tick_bank w f g m).bind fun _ => (tick_user w f g m).bind fun _ =>
      (tick_end hw hf hg hb).bind fun _ => .look (m := fun d => M.lift (.ok d.clientSystemId)) fun _ => .lift _
  unfold takeClientSystemId
  split
  · exact .lift _
  · exact .bind (.lift _) fun id => .modify _

theorem tick_init : Tick (init w) (init (reclock f g w)) := by
  refine .bind ?_ fun _ => .bind (.modify _) fun _ => ?_
  · refine .look (m := fun d s => if d.clientSystemId = c!"0" then
      ((syncClientSystemId w).bind fun id => M.modify fun d => { d with clientSystemId := id }) s else (.ok (), s))
      (m' := fun d s => if d.clientSystemId = c!"0" then
      ((syncClientSystemId (reclock f g w)).bind fun id => M.modify fun d => { d with clientSystemId := id }) s else (.ok (), s)) fun d => ?_
    by_cases hc : d.clientSystemId = c!"0"
    · simp only [hc, if_true]
      exact .bind (tick_sync hw hf hg hb) fun _ => .modify _
    · simp only [hc, if_false]
      exact fun s t h => ⟨rfl, h⟩
  · refine .look (m := fun d => (exchange w .init (initSegments d) d.version).bind fun m => opened w m)
      (m' := fun d => (exchange (reclock f g w) .init (initSegments d) d.version).bind fun m => opened (reclock f g w) m) fun d => ?_
    exact .bind (tick_exchange hw hf hg hb _ _ _) fun m => (tick_takeDialogId m).bind fun _ => (tick_bank w f g m).bind fun _ =>
      (tick_user w f g m).bind fun _ => .bind (.lift _) fun _ => .bind (.lift _) fun _ => tick_update w f g m

theorem tick_send (j : Job) : Tick (sendMessage w j) (sendMessage (reclock f g w) j) :=
  (tick_init hw hf hg hb).bind fun _ => .deferred
    ((tick_exchange hw hf hg hb _ _ _).bind fun _ => (Tick.lift _).bind fun _ => .lift _) (tick_end hw hf hg hb)

theorem tick_syncUser : Tick (syncUserParameterData w) (syncUserParameterData (reclock f g w)) :=
  (tick_init hw hf hg hb).bind fun _ => .deferred (.lift _) (tick_end hw hf hg hb)

end

theorem tick_anonymous (w : World σ α) (f g : Nat → Time.Civil) (j : Job) :
    Tick (sendAnonymousMessage w j) (sendAnonymousMessage (reclock f g w) j) := by
  have hend : Tick (anonymousEnd w) (anonymousEnd (reclock f g w)) :=
    .look (m := fun d => (exchangePlain w .end_ [some (dialogEndSeg d.dialogId)] d.version).bind fun m => M.lift (checkAcks m))
      (m' := fun d => (exchangePlain (reclock f g w) .end_ [some (dialogEndSeg d.dialogId)] d.version).bind fun m => M.lift (checkAcks m))
      fun _ => .bind (tick_exchangePlain w f g _ _ _) fun _ => .lift _
  refine .bind (.bind (.modify _) fun _ => ?_) fun _ => .deferred
    (.bind (tick_exchangePlain w f g _ _ _) fun _ => .bind (.lift _) fun _ => .lift _) hend
  refine .look (m := fun d => (exchangePlain w .init (anonymousSegments d) d.version).bind fun m => anonymousOpened w m)
    (m' := fun d => (exchangePlain (reclock f g w) .init (anonymousSegments d) d.version).bind fun m => anonymousOpened (reclock f g w) m)
    fun c => ?_
  exact .bind (tick_exchangePlain w f g _ _ _) fun m => (tick_takeDialogId m).bind fun _ => (tick_bank w f g m).bind fun _ =>
    (tick_user w f g m).bind fun _ => .bind (.lift _) fun _ => .lift _

section

variable {w : World σ α} {f g : Nat → Time.Civil} (hw : ClocksRun w) (hf : ∀ n, OnCalendar (f n)) (hg : ∀ n, OnCalendar (g n))
  (hb : TimeBlind w)
include hw hf hg hb

theorem tick_run (c : Call) : Tick (run w c) (run (reclock f g w) c) := by
  have key : ∀ {β : Type} {m m' : M σ α β}, Tick m m' → Tick (fun s => void (m s)) (fun s => void (m' s)) := by
    intro β m m' hm s t ha
    obtain ⟨e, h⟩ := hm s t ha
    exact ⟨congrArg (Outcome.map' fun _ => ()) e, h⟩
  cases c with
  | send j => exact key (tick_send hw hf hg hb j)
  | sendAnonymous j => exact key (tick_anonymous w f g j)
  | sync => exact key (tick_sync hw hf hg hb)
  | syncUser => exact key (tick_syncUser hw hf hg hb)
  | setPin p => exact key (.modify _)

theorem sameTalk_runAll (cs : List Call) : ∀ s t, SameTalk s t → SameTalk (runAll w cs s) (runAll (reclock f g w) cs t) := by
  induction cs with
  | nil => exact fun _ _ h => h
  | cons c cs ih => exact fun s t h => ih _ _ (tick_run hw hf hg hb c s t h).2

/-! ## C137 -/

/-- C137: a bank that does not look at the times is told the same at any time of day.  Whatever calls are made, with
other clocks the dialog ends in the same state, and the messages are of the same kinds, answered alike, and message by
message the same bytes except for the two times in the signature header and the encryption header. -/
theorem C137_history (s : St σ α) (cs : List Call) : SameTalk (runAll w cs s) (runAll (reclock f g w) cs s) :=
  sameTalk_runAll hw hf hg hb cs s s
    ⟨rfl, rfl, List.forall₂_same.2 fun _ _ => ⟨rfl, rfl, Or.inl rfl⟩⟩

/-- C137: and every further call gives the same. -/
theorem C137_results (s : St σ α) (cs : List Call) (j : Job) :
    (sendMessage (reclock f g w) j (runAll (reclock f g w) cs s)).1 = (sendMessage w j (runAll w cs s)).1 ∧
    (syncClientSystemId (reclock f g w) (runAll (reclock f g w) cs s)).1 = (syncClientSystemId w (runAll w cs s)).1 ∧
    (syncUserParameterData (reclock f g w) (runAll (reclock f g w) cs s)).1 = (syncUserParameterData w (runAll w cs s)).1 ∧
    (sendAnonymousMessage (reclock f g w) j (runAll (reclock f g w) cs s)).1 = (sendAnonymousMessage w j (runAll w cs s)).1 := by
  have h := C137_history hw hf hg hb s cs
  exact ⟨(tick_send hw hf hg hb j _ _ h).1.symm, (tick_sync hw hf hg hb _ _ h).1.symm, (tick_syncUser hw hf hg hb _ _ h).1.symm,
    (tick_anonymous w f g j _ _ h).1.symm⟩

/-- C137: the lengths are the same, too, whatever the clocks show; so all sizes stated in the messages are. -/
theorem C137_lengths (s : St σ α) (cs : List Call) :
    (runAll (reclock f g w) cs s).sent.map (fun e => e.bytes.length) = (runAll w cs s).sent.map (fun e => e.bytes.length) := by
  have h := (C137_history hw hf hg hb s cs).sent
  generalize (runAll w cs s).sent = l at h ⊢
  generalize (runAll (reclock f g w) cs s).sent = l' at h ⊢
  induction h with
  | nil => rfl
  | cons hab _ ih =>
    simp only [List.map_cons, ih, List.cons.injEq, and_true]
    rcases hab.2.2 with e | ⟨x, y, z, e, e', t, t', h1, h2, h3, h4, e1, e2⟩
    · rw [e]
    · rw [e1, e2]
      simp only [List.length_append, stamp_length h1, stamp_length h2, stamp_length h3, stamp_length h4]

end

namespace Sample

/-- The evening of a leap day. -/
def evening : Time.Civil := ⟨2024, 2, 29, 23, 59, 58, 0⟩

theorem evening_exists : OnCalendar evening := by
  simp [OnCalendar, ExistingDate, LeapYear, TimeOfDay, evening]

/-- A bank that refuses long messages. -/
def sober : World Bytes Bytes :=
  { world good with env := fun n => { (world good).env n with
      transport := fun b => if b.length < 1000 then good n else .err } }

theorem sober_clocks : ClocksRun sober := by
  intro n
  simp [OnCalendar, ExistingDate, TimeOfDay, sober, world]

theorem sober_blind : TimeBlind sober := by
  rintro n a b ⟨x, y, z, e, e', t, t', h1, h2, h3, h4, rfl, rfl⟩
  simp only [sober, List.length_append, stamp_length h1, stamp_length h2, stamp_length h3, stamp_length h4]

end Sample

example : SameTalk (runAll Sample.sober [.sync, .send Sample.work] (Sample.fresh Sample.good))
    (runAll (reclock (fun _ => Sample.evening) (fun _ => Sample.evening) Sample.sober) [.sync, .send Sample.work] (Sample.fresh Sample.good)) :=
  C137_history Sample.sober_clocks (fun _ => Sample.evening_exists) (fun _ => Sample.evening_exists)
    Sample.sober_blind _ _

/-- The times do stand in the messages: what is sent in the evening differs. -/
example : (runAll (reclock (fun _ => Sample.evening) (fun _ => Sample.evening) (Sample.world Sample.good)) [.sync]
      (Sample.fresh Sample.good)).sent.map (·.bytes) ≠
    (runAll (Sample.world Sample.good) [.sync] (Sample.fresh Sample.good)).sent.map (·.bytes) := by
  decide +kernel

end Verif.Dialog

import Verif.Dialog.Model
import Verif.Message.Props
import Verif.Transport.Props

/-
Lemmas about the dialog: which messages can be marshalled, and what each part of the
program leaves alone.
-/

namespace Verif.Dialog

open GoLib Element Element.Spec Segment Message Domain Transport

/-! ## Which messages can be marshalled -/

mutual
/-- The texts of an element that have to be Latin-1. -/
def texts : DE → List Str
  | .alnum v _ => [v]
  | .text v _ => [v]
  | .code v _ _ => [v]
  | .identification v _ => [v]
  | .currency v _ => [v]
  | .group _ es => textsAll es
  | .array _ _ es => textsAll es
  | _ => []

/-- The texts of several elements. -/
def textsAll : List (Option DE) → List Str
  | [] => []
  | none :: r => textsAll r
  | some e :: r => texts e ++ textsAll r
end

theorem text_ok_iff (v : Str) : (∃ b, marshalText v = .ok b) ↔ Latin1 v := by
  rcases C06_text v with ⟨h, b, hb, _⟩ | ⟨h, hp⟩
  · exact ⟨fun _ => h, fun _ => ⟨b, hb⟩⟩
  · rw [hp]
    simp [h]

mutual
theorem marshal_ok_iff : (e : DE) → ((∃ b, e.marshal = .ok b) ↔ ∀ t ∈ texts e, Latin1 t)
  | .alnum v _ => by rw [DE.marshal, texts]; simpa using text_ok_iff v
  | .text v _ => by rw [DE.marshal, texts]; simpa using text_ok_iff v
  | .digit _ _ => by rw [DE.marshal, texts] <;> simp
  | .number _ _ => by rw [DE.marshal, texts] <;> simp
  | .float _ _ => by rw [DE.marshal, texts] <;> simp
  | .dtaus _ _ => by rw [DE.marshal, texts] <;> simp
  | .binary _ _ => by rw [DE.marshal, texts] <;> simp
  | .boolean _ => by rw [DE.marshal, texts] <;> simp
  | .code v _ _ => by rw [DE.marshal, texts]; simpa using text_ok_iff v
  | .date _ => by rw [DE.marshal, texts] <;> simp
  | .virtualDate _ _ => by rw [DE.marshal, texts] <;> simp
  | .time _ => by rw [DE.marshal, texts] <;> simp
  | .identification v _ => by rw [DE.marshal, texts]; simpa using text_ok_iff v
  | .countryCode _ _ => by rw [DE.marshal, texts] <;> simp
  | .currency v _ => by rw [DE.marshal, texts]; simpa using text_ok_iff v
  | .value _ _ => by rw [DE.marshal, texts] <;> simp
  | .group _ es => by
    rw [DE.marshal, texts, ← marshalAll_ok_iff es]
    cases DE.marshalAll es <;> simp
  | .array _ _ es => by
    rw [DE.marshal, texts, ← marshalAll_ok_iff es]
    cases DE.marshalAll es <;> simp

theorem marshalAll_ok_iff : (es : List (Option DE)) → ((∃ b, DE.marshalAll es = .ok b) ↔ ∀ t ∈ textsAll es, Latin1 t)
  | [] => by rw [DE.marshalAll, textsAll]; simp
  | none :: r => by
    rw [DE.marshalAll, DE.marshalOpt, textsAll, ← marshalAll_ok_iff r]
    cases DE.marshalAll r <;> simp
  | some e :: r => by
    rw [DE.marshalAll, DE.marshalOpt, textsAll]
    have h1 := marshal_ok_iff e
    have h2 := marshalAll_ok_iff r
    simp only [List.mem_append, or_imp, forall_and, ← h1, ← h2]
    cases e.marshal <;> cases DE.marshalAll r <;> simp
end

/-- Every text of the segment is Latin-1. -/
def Writable (s : Seg) : Prop := Latin1 s.header.id ∧ ∀ t ∈ textsAll s.elements, Latin1 t

theorem seg_ok_iff (s : Seg) : (∃ b, s.marshal = .ok b) ↔ Writable s := by
  unfold Writable Seg.marshal Header.marshal
  rw [← marshalAll_ok_iff]
  have h : (∃ b, s.header.de.marshal = .ok b) ↔ Latin1 s.header.id := by
    rw [marshal_ok_iff]
    unfold Header.de
    cases s.header.ref <;> simp [texts, textsAll]
  rw [← h]
  cases s.header.de.marshal <;> cases DE.marshalAll s.elements <;> simp

@[simp] theorem writable_setPosition (s : Seg) (n : Int) : Writable (s.setPosition n) ↔ Writable s := Iff.rfl

theorem segOpt_ok_iff (s : Option Seg) : (∃ b, marshalSegOpt s = .ok b) ↔ ∀ x ∈ s, Writable x := by
  cases s with
  | none => simp [marshalSegOpt]
  | some s => simp [marshalSegOpt, seg_ok_iff]

theorem segs_ok_iff (ss : List (Option Seg)) : (∃ b, marshalSegs ss = .ok b) ↔ ∀ x, some x ∈ ss → Writable x := by
  induction ss with
  | nil => simp [marshalSegs]
  | cons s r ih =>
    rw [marshalSegs]
    have h1 := segOpt_ok_iff s
    simp only [List.mem_cons, or_imp, forall_and, ← ih]
    have : (∀ x, some x = s → Writable x) ↔ ∃ b, marshalSegOpt s = .ok b := by
      rw [h1]
      simp only [Option.mem_def, eq_comm]
    rw [this]
    cases marshalSegOpt s <;> cases marshalSegs r <;> simp

/-! ## Sending an encrypted message -/

/-- The texts of the providers that end up in a message. -/
def providerTexts (p : SignatureProvider) (c : CryptoProvider) : List Str :=
  [p.securityFn, p.controlRef, p.clientSystemId, p.key.keyName.bankId, p.key.keyName.userId, p.key.keyName.keyType,
   p.key.pin, c.clientSystemId, c.key.keyName.bankId, c.key.keyName.userId, c.key.keyName.keyType]

theorem latin1_of_all {s : Str} (h : s.all (fun c => decide (c.toNat ≤ 255)) = true) : Latin1 s := by
  intro c hc
  simpa using List.all_eq_true.1 h c hc

theorem latin1_nil : Latin1 [] := by intro c hc; simp at hc

theorem signatureHeader_writable (v : Version) (fn ref id : Str) (k : KeyName) (now : Time.Civil) :
    Writable (signatureHeader v fn ref id k now) ↔
      ∀ t ∈ [fn, ref, id, k.bankId, k.userId, k.keyType], Latin1 t := by
  have l : ∀ s : Str, s.all (fun c => decide (c.toNat ≤ 255)) = true → Latin1 s := fun _ => latin1_of_all
  have h1 := l c!"1" (by decide)
  have h2 := l c!"HNSHK" (by decide)
  have h3 := l c!"999" (by decide)
  have h4 := l c!"6" (by decide)
  have h5 := l c!"10" (by decide)
  have h6 := l c!"16" (by decide)
  have h7 := l c!"PIN" (by decide)
  cases v <;>
  · unfold Writable
    simp [signatureHeader, newSegment, newHeader, securityId, securityDate, hashAlgorithm, signatureAlgorithm, keyNameDE,
      bankIdentification, securityProfile, textsAll, texts, h1, h2, h3, h4, h5, h6, h7]
    try tauto

theorem signatureEnd_writable (v : Version) (ref pin : Str) :
    Writable (signatureEnd v ref pin) ↔ Latin1 ref ∧ Latin1 pin := by
  have h2 : Latin1 c!"HNSHA" := latin1_of_all (by decide)
  cases v <;>
  · unfold Writable
    simp [signatureEnd, newSegment, newHeader, pinTanDE, textsAll, texts, h2]

theorem encryptionHeader_writable (v : Version) (fn id : Str) (k : KeyName) (now : Time.Civil) :
    Writable (encryptionHeader v fn id k now) ↔ ∀ t ∈ [id, k.bankId, k.userId, k.keyType], Latin1 t := by
  have l : ∀ s : Str, s.all (fun c => decide (c.toNat ≤ 255)) = true → Latin1 s := fun _ => latin1_of_all
  have h1 := l c!"1" (by decide)
  have h2 := l c!"HNVSK" (by decide)
  have h3 := l c!"998" (by decide)
  have h4 := l c!"0" (by decide)
  have h5 := l c!"2" (by decide)
  have h6 := l c!"13" (by decide)
  have h7 := l c!"PIN" (by decide)
  have h8 := l c!"5" (by decide)
  cases v <;>
  · unfold Writable
    simp [encryptionHeader, newSegment, newHeader, securityId, securityDate, pinTanEncryptionAlgorithm, keyNameDE,
      bankIdentification, securityProfile, textsAll, texts, h1, h2, h3, h4, h5, h6, h7, h8]

theorem encryptedData_writable (d : Bytes) : Writable (encryptedData d) := by
  have h : Latin1 c!"HNVSD" := latin1_of_all (by decide)
  unfold Writable
  simp [encryptedData, newSegment, newHeader, textsAll, texts, h]

theorem msgHeader_writable (h : MsgHeader) :
    Writable h.seg ↔ Latin1 h.dialogId ∧ ∀ r ∈ h.ref, Latin1 r.1 := by
  have h2 : Latin1 c!"HNHBK" := latin1_of_all (by decide)
  unfold Writable
  cases hr : h.ref <;> simp [MsgHeader.seg, newSegment, newHeader, referencingMessage, textsAll, texts, h2, hr]

theorem msgEnd_writable (e : MsgEnd) : Writable e.seg := by
  have h2 : Latin1 c!"HNHBS" := latin1_of_all (by decide)
  unfold Writable
  simp [MsgEnd.seg, newSegment, newHeader, textsAll, texts, h2]

theorem bytes_ok_iff (m : BasicMessage) (segs : List (Option Seg)) :
    (∃ b, m.bytes segs = .ok b) ↔ Writable m.header.seg ∧ (∀ x ∈ m.sigBegin, Writable x) ∧
      (∀ x, some x ∈ segs → Writable x) ∧ (∀ x ∈ m.sigEnd, Writable x) := by
  unfold BasicMessage.bytes
  rw [← seg_ok_iff, ← segOpt_ok_iff, ← segs_ok_iff, ← segOpt_ok_iff]
  have := (seg_ok_iff m.end_.seg).2 (msgEnd_writable _)
  obtain ⟨e, he⟩ := this
  rw [he]
  cases m.header.seg.marshal <;> cases marshalSegOpt m.sigBegin <;> cases marshalSegs segs <;>
    cases marshalSegOpt m.sigEnd <;> simp

/-- A fresh message can be marshalled exactly if all its segments can. -/
theorem msg_ok_iff (m : BasicMessage) (segs : List (Option Seg)) (hc : m.content = some segs) (hca : m.cache = []) :
    (∃ b m', m.marshal = .ok (b, m')) ↔ Writable m.header.seg ∧ (∀ x ∈ m.sigBegin, Writable x) ∧
      (∀ x, some x ∈ segs → Writable x) ∧ (∀ x ∈ m.sigEnd, Writable x) := by
  rw [← bytes_ok_iff]
  unfold BasicMessage.marshal BasicMessage.setSize
  rw [hc]
  simp only
  cases h : m.bytes segs with
  | err => simp
  | panic => simp
  | ok b =>
    simp only [Outcome.map', Outcome.bind, hca, if_true]
    have h2 : ∃ b', BasicMessage.bytes { m with header := { m.header with size := b.length } } segs = .ok b' := by
      rw [bytes_ok_iff]
      have := (bytes_ok_iff m segs).1 ⟨b, h⟩
      rw [msgHeader_writable] at this ⊢
      exact this
    obtain ⟨b', h2⟩ := h2
    rw [hca, hc] at h2
    simp only at h2
    simp only [h2, Outcome.ok.injEq, exists_eq', Prod.mk.injEq]
    simp

/-- Segments apart from their positions: ID, version and elements. -/
def bodies (segs : List (Option Seg)) : List (Str × Int × List (Option DE)) :=
  (segs.filterMap id).map fun x => (x.header.id, x.header.version, x.elements)

theorem positionAll_bodies (segs : List (Option Seg)) : ∀ n : Int,
    bodies (positionAll n segs).1 = bodies segs ∧
    ((∀ x, some x ∈ (positionAll n segs).1 → Writable x) ↔ ∀ x, some x ∈ segs → Writable x) := by
  induction segs with
  | nil => intro n; simp [positionAll]
  | cons s r ih =>
    intro n
    cases s with
    | none =>
      obtain ⟨h1, h2⟩ := ih n
      constructor
      · simpa [positionAll, positionOpt, bodies] using h1
      · simpa [positionAll, positionOpt] using h2
    | some x =>
      obtain ⟨h1, h2⟩ := ih (n + 1)
      constructor
      · simp only [positionAll, positionOpt, bodies, List.filterMap_cons, id, List.map_cons] at h1 ⊢
        rw [h1]
        rfl
      · simp only [positionAll, positionOpt, List.mem_cons, Option.some.injEq, or_imp, forall_and, forall_eq] at h2 ⊢
        rw [h2]
        rfl

/-- What signing leaves. -/
structure Signed (m : BasicMessage) (segs : List (Option Seg)) (p : SignatureProvider) (m' : BasicMessage) : Prop where
  header : m'.header = { m.header with position := 1 }
  number : m'.end_.number = m.end_.number
  version : m'.version = m.version
  content : ∃ segs', m'.content = some segs' ∧ bodies segs' = bodies segs ∧
    ((∀ x, some x ∈ segs' → Writable x) ↔ ∀ x, some x ∈ segs → Writable x)
  writable : ((∀ x ∈ m'.sigBegin, Writable x) ∧ (∀ x ∈ m'.sigEnd, Writable x)) ↔
    ∀ t ∈ [p.securityFn, p.controlRef, p.clientSystemId, p.key.keyName.bankId, p.key.keyName.userId,
      p.key.keyName.keyType, p.key.pin], Latin1 t

theorem sign_ok (m : BasicMessage) (segs : List (Option Seg)) (hc : m.content = some segs) (p : SignatureProvider)
    (now : Time.Civil) : ∃ m', m.sign p now = .ok m' ∧ Signed m segs p m' := by
  unfold BasicMessage.sign BasicMessage.setPositions
  rw [hc]
  refine ⟨_, rfl, ?_, rfl, rfl, ?_, ?_⟩
  · rfl
  · exact ⟨_, rfl, (positionAll_bodies _ _).1, (positionAll_bodies _ _).2⟩
  · simp only [positionOpt, Option.mem_def, Option.some.injEq, forall_eq', writable_setPosition,
      signatureHeader_writable, signatureEnd_writable]
    simp only [List.mem_cons, List.not_mem_nil, or_false, forall_eq_or_imp, forall_eq]
    tauto

/-- Encrypting succeeds exactly if there is a PIN and everything can be marshalled. -/
theorem encrypt_ok_iff (m : BasicMessage) (segs : List (Option Seg)) (hc : m.content = some segs) (p : CryptoProvider)
    (now : Time.Civil) : (∃ e, m.encrypt p now = .ok e) ↔ p.key.pin ≠ [] ∧ (∀ x ∈ m.sigBegin, Writable x) ∧
      (∀ x, some x ∈ segs → Writable x) ∧ (∀ x ∈ m.sigEnd, Writable x) := by
  unfold BasicMessage.encrypt CryptoProvider.encrypt
  rw [hc, ← segOpt_ok_iff, ← segs_ok_iff, ← segOpt_ok_iff]
  simp only
  cases marshalSegOpt m.sigBegin <;> cases marshalSegs segs <;> cases marshalSegOpt m.sigEnd <;>
    simp
  by_cases hp : p.key.pin = [] <;> simp [hp]

variable {σ α : Type}

/-- Everything a message needs to be sent. -/
def CanSend (d : Dialog σ α) (segs : List (Option Seg)) : Prop :=
  d.crypto.key.pin ≠ [] ∧ Latin1 d.dialogId ∧ (∀ t ∈ providerTexts d.sig d.crypto, Latin1 t) ∧
    ∀ x, some x ∈ segs → Writable x

/-- A logged message: of kind `k`, with number `n`, for dialog `id`, containing `segs`. -/
structure Logged (w : World σ α) (e : Sent σ) (k : Kind) (version : Int) (n : Int) (id : Str) (segs : List (Option Seg)) :
    Prop where
  kind : e.kind = k
  header : e.wire.header = newMsgHeader (-1) version id n
  end_ : e.wire.end_.number = n
  plainHeader : e.plain.header = e.wire.header
  plainEnd : e.plain.end_ = e.wire.end_
  body : bodies (e.plain.content.getD []) = bodies segs
  marshalled : ∃ m, e.wire.marshal = .ok (e.bytes, m)
  answered : ∃ n, e.reply = receive w.decoders ((w.env n).transport e.bytes)

theorem encrypt_msg {m : BasicMessage} {p : CryptoProvider} {now : Time.Civil} {e : EncryptedMessage}
    (h : m.encrypt p now = .ok e) : e.msg.header = m.header ∧ e.msg.end_ = m.end_ ∧ e.msg.cache = [] ∧
      e.msg.sigBegin = none ∧ e.msg.sigEnd = none ∧
      e.msg.content = some [some (encryptionHeader m.version p.securityFn p.clientSystemId p.key.keyName now),
        some (encryptedData e.data)] := by
  unfold BasicMessage.encrypt at h
  cases hc : m.content with
  | none => rw [hc] at h; simp at h
  | some segs =>
    rw [hc] at h
    simp only at h
    cases h1 : marshalSegOpt m.sigBegin <;> rw [h1] at h <;> simp only [Outcome.bind, reduceCtorEq] at h
    cases h2 : marshalSegs segs <;> rw [h2] at h <;> simp only [reduceCtorEq] at h
    cases h3 : marshalSegOpt m.sigEnd <;> rw [h3] at h <;> simp only [reduceCtorEq] at h
    rename_i a b c
    cases h4 : p.encrypt (a ++ b ++ c) <;> rw [h4] at h <;> simp only [Outcome.map', reduceCtorEq, Outcome.ok.injEq] at h
    subst h
    exact ⟨rfl, rfl, rfl, rfl, rfl, rfl⟩

theorem requestEncrypted_spec (w : World σ α) (k : Kind) (m : BasicMessage) (segs : List (Option Seg))
    (hc : m.content = some segs) (hr : m.header.ref = none) (s : St σ α) :
    (requestEncrypted w k m s).2.d = s.d ∧ (requestEncrypted w k m s).2.step = s.step ∧
    (let sends := s.d.crypto.key.pin ≠ [] ∧ Latin1 m.header.dialogId ∧ (∀ x ∈ m.sigBegin, Writable x) ∧
        (∀ x, some x ∈ segs → Writable x) ∧ (∀ x ∈ m.sigEnd, Writable x) ∧
        ∀ t ∈ [s.d.crypto.clientSystemId, s.d.crypto.key.keyName.bankId, s.d.crypto.key.keyName.userId,
          s.d.crypto.key.keyName.keyType], Latin1 t
     (¬ sends ∧ (requestEncrypted w k m s).2.sent = s.sent ∧ ∀ r, (requestEncrypted w k m s).1 ≠ .ok r) ∨
     (sends ∧ ∃ e : Sent σ, (requestEncrypted w k m s).2.sent = s.sent ++ [e] ∧ (requestEncrypted w k m s).1 = e.reply ∧
        e.kind = k ∧ e.plain = m ∧ e.wire.header = m.header ∧ e.wire.end_ = m.end_ ∧
        (∃ m', e.wire.marshal = .ok (e.bytes, m')) ∧
        e.reply = receive w.decoders ((w.env s.step).transport e.bytes))) := by
  have h1 := encrypt_ok_iff m segs hc s.d.crypto (w.env s.step).encryptTime
  unfold requestEncrypted
  cases he : m.encrypt s.d.crypto (w.env s.step).encryptTime with
  | err =>
    rw [he] at h1
    simp only [reduceCtorEq, exists_false, false_iff] at h1
    exact ⟨rfl, rfl, Or.inl ⟨by tauto, rfl, by simp⟩⟩
  | panic =>
    rw [he] at h1
    simp only [reduceCtorEq, exists_false, false_iff] at h1
    exact ⟨rfl, rfl, Or.inl ⟨by tauto, rfl, by simp⟩⟩
  | ok e =>
    have h2 := h1.1 ⟨e, he⟩
    obtain ⟨e1, e2, e3, e4, e5, e6⟩ := encrypt_msg he
    have h3 := msg_ok_iff e.msg _ e6 e3
    rw [e4, e5, e1, msgHeader_writable, hr] at h3
    simp only [Option.mem_def, reduceCtorEq, false_implies, implies_true, and_true, List.mem_cons,
      Option.some.injEq, List.not_mem_nil, or_false, forall_eq_or_imp, forall_eq, true_and,
      encryptionHeader_writable, encryptedData_writable] at h3
    simp only
    unfold request
    cases hm : e.msg.marshal with
    | err =>
      rw [hm] at h3
      simp only [reduceCtorEq, exists_false, false_iff] at h3
      refine ⟨rfl, rfl, Or.inl ⟨?_, rfl, by simp⟩⟩
      simp only [List.mem_cons, List.not_mem_nil, or_false, forall_eq_or_imp, forall_eq]
      tauto
    | panic =>
      rw [hm] at h3
      simp only [reduceCtorEq, exists_false, false_iff] at h3
      refine ⟨rfl, rfl, Or.inl ⟨?_, rfl, by simp⟩⟩
      simp only [List.mem_cons, List.not_mem_nil, or_false, forall_eq_or_imp, forall_eq]
      tauto
    | ok r =>
      rw [hm] at h3
      have h4 := h3.1 ⟨r.1, r.2, rfl⟩
      refine ⟨rfl, rfl, Or.inr ⟨?_, ⟨k, m, e.msg, r.1, _⟩, rfl, rfl, rfl, rfl, e1, e2, ⟨r.2, hm⟩, rfl⟩⟩
      simp only [List.mem_cons, List.not_mem_nil, or_false, forall_eq_or_imp, forall_eq]
      tauto

theorem newMessage_ok (segs : List (Option Seg)) (v : Version) (s : St σ α) :
    newMessage segs v s = (.ok { header := newMsgHeader (-1) s.d.version.number s.d.dialogId (s.d.messageCount + 1)
                                 end_ := ⟨-1, s.d.messageCount + 1⟩, sigBegin := none,
                                 sigEnd := none, content := some segs, version := v, cache := [] },
      { s with d := { s.d with messageCount := s.d.messageCount + 1 }, step := s.step + 1 }) := rfl

/-- What a secured exchange does: the counter goes up; if there is a PIN and every text is
Latin-1, one message is logged and its answer is the result. -/
theorem exchange_spec (w : World σ α) (k : Kind) (segs : List (Option Seg)) (v : Version) (s : St σ α) :
    (exchange w k segs v s).2.d = { s.d with messageCount := s.d.messageCount + 1 } ∧
    (exchange w k segs v s).2.step = s.step + 1 ∧
    ((¬ CanSend s.d segs ∧ (exchange w k segs v s).2.sent = s.sent ∧ ∀ r, (exchange w k segs v s).1 ≠ .ok r) ∨
     (CanSend s.d segs ∧ ∃ e : Sent σ, (exchange w k segs v s).2.sent = s.sent ++ [e] ∧
        (exchange w k segs v s).1 = e.reply ∧
        Logged w e k s.d.version.number (s.d.messageCount + 1) s.d.dialogId segs)) := by
  unfold exchange M.bind
  simp only [newMessage_ok]
  unfold sign
  obtain ⟨m', hm, hs⟩ := sign_ok
    { header := newMsgHeader (-1) s.d.version.number s.d.dialogId (s.d.messageCount + 1)
      end_ := ⟨-1, s.d.messageCount + 1⟩, sigBegin := none, sigEnd := none, content := some segs, version := v, cache := [] }
    segs rfl s.d.sig (w.env (s.step + 1)).signTime
  simp only [hm]
  obtain ⟨segs', hc, hb, hwr⟩ := hs.content
  obtain ⟨q1, q2, q3⟩ := requestEncrypted_spec w k m' segs' hc (by rw [hs.header]; rfl)
    { s with d := { s.d with messageCount := s.d.messageCount + 1 }, step := s.step + 1 }
  refine ⟨q1, q2, ?_⟩
  have hx := hs.writable
  have hd : m'.header.dialogId = s.d.dialogId := by rw [hs.header]; rfl
  simp only [hd, hwr] at q3
  unfold CanSend providerTexts
  simp only [List.mem_cons, List.not_mem_nil, or_false, forall_eq_or_imp, forall_eq] at hx q3 ⊢
  rcases q3 with ⟨n, h1, h2⟩ | ⟨y, e, h1, h2, h3, h4, h5, h6, h7, h8⟩
  · exact Or.inl ⟨by tauto, h1, h2⟩
  · refine Or.inr ⟨by tauto, e, h1, h2, h3, ?_, ?_, ?_, ?_, ?_, h7, ⟨_, h8⟩⟩
    · rw [h5, hs.header]; rfl
    · rw [h6, hs.number]
    · rw [h4, h5]
    · rw [h4, h6]
    · rw [h4, hc]; exact hb

/-! ## What parts of the program leave alone -/

/-- `m` leaves `f` of the state alone. -/
def Keeps {β γ : Type} (f : St σ α → γ) (m : M σ α β) : Prop := ∀ s, f (m s).2 = f s

theorem Keeps.bind {β γ δ : Type} {f : St σ α → δ} {m : M σ α β} {g : β → M σ α γ} (h1 : Keeps f m)
    (h2 : ∀ b, Keeps f (g b)) : Keeps f (m.bind g) := by
  intro s
  unfold M.bind
  have := h1 s
  rcases h : m s with ⟨r, s'⟩
  rw [h] at this
  cases r with
  | ok b => exact (h2 b s').trans this
  | err => exact this
  | panic => exact this

theorem Keeps.lift {β γ : Type} {f : St σ α → γ} (o : Outcome β) : Keeps f (M.lift (σ := σ) (α := α) o) := fun _ => rfl

theorem Keeps.modify {γ : Type} {f : St σ α → γ} {g : Dialog σ α → Dialog σ α}
    (h : ∀ s : St σ α, f { s with d := g s.d } = f s) : Keeps f (M.modify g) := h

/-- Everything but the parameters the bank sends about itself and the user. -/
def core (s : St σ α) : St σ α :=
  { s with d := { s.d with userParameters := ⟨[], 0, 0, [], []⟩, clientId := [], accounts := []
                           bankParameterData := ⟨⟨0, ⟨0, []⟩, [], 0, 0, 0, 0⟩, none, []⟩, supportedSegments := [] } }

theorem parsePinTan_core (w : World σ α) (m : Decrypted σ) : Keeps core (parsePinTan w m) := by
  unfold parsePinTan
  cases find m c!"HIPINS" with
  | none => exact .lift _
  | some p => exact .bind (.lift _) fun _ => .modify fun _ => rfl

theorem parseBank_core (w : World σ α) (m : Decrypted σ) : Keeps core (parseBankParameterData w m) := by
  unfold parseBankParameterData
  cases find m c!"HIBPA" with
  | none => exact .lift _
  | some p =>
    exact .bind (.lift _) fun _ => .bind (.modify fun _ => rfl) fun _ => .bind (.lift _) fun _ =>
      .bind (.modify fun _ => rfl) fun _ => .bind (parsePinTan_core w m) fun _ => .modify fun _ => rfl

theorem parseAccounts_core (w : World σ α) (xs : List (Decoded σ)) : Keeps core (parseAccounts w xs) := by
  induction xs with
  | nil => exact .lift _
  | cons x xs ih => exact .bind (.lift _) fun _ => .bind (.modify fun _ => rfl) fun _ => ih

theorem parseUser_core (w : World σ α) (m : Decrypted σ) : Keeps core (parseUser w m) := by
  unfold parseUser
  cases find m c!"HIUPA" with
  | none => exact .lift _
  | some p => exact .bind (.lift _) fun _ => .modify fun _ => rfl

theorem parseUPD_core (w : World σ α) (m : Decrypted σ) : Keeps core (parseUserParameterData w m) :=
  .bind (parseUser_core w m) fun _ => parseAccounts_core w _

end Verif.Dialog

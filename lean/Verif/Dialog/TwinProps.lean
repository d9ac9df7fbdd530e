import Verif.Dialog.DeliveryProps

/-
C134: what depends on the PIN.
-/

namespace Verif.Dialog

open GoLib Element Element.Spec Segment Message Domain Transport

variable {σ α : Type}

/-! ## Specification -/

/-- A secured message that states its size with the digits `size`. -/
def Parts.sized (p : Parts) (size : Bytes) (who : Signer) : Bytes :=
  { p with first := b!"HNHBK:1:3+" ++ size ++ b!"+" ++ p.first }.bytes who

/-- Two messages that are the same but for the PIN in the signature end, the length of the data segment and the
size stated in the message header, which is the length of the message if twelve digits suffice for it. -/
def Twins (pin pin' : Str) (a b : Bytes) : Prop :=
  ∃ (p : Parts) (n n' : Nat) (reference : Str) (key : KeyName),
    a = p.sized (zeroPad 12 n) ⟨pin, reference, key⟩ ∧ b = p.sized (zeroPad 12 n') ⟨pin', reference, key⟩ ∧
    (a.length < 10 ^ 12 → n = a.length) ∧ (b.length < 10 ^ 12 → n' = b.length)

/-- The bank, and whatever stands between, answers two messages that differ in the PIN alike. -/
def PinBlind (w : World σ α) (pin pin' : Str) : Prop :=
  ∀ n a b, Twins pin pin' a b → (w.env n).transport a = (w.env n).transport b

/-- A PIN that can be sent. -/
def Sendable (pin : Str) : Prop := pin ≠ [] ∧ Latin1 pin

/-- The dialog with another PIN. -/
def withPin (pin : Str) (d : Dialog σ α) : Dialog σ α :=
  { d with sig := { d.sig with key := { d.sig.key with pin := pin } },
           crypto := { d.crypto with key := { d.crypto.key with pin := pin } } }

/-- Two states that differ in nothing but the PIN: the dialogs hold the one and the other, and the messages sent so
far were of the same kinds, were answered alike, and are the same or twins. -/
structure Alike (pin pin' : Str) (s t : St σ α) : Prop where
  left : s.d = withPin pin s.d
  right : t.d = withPin pin' s.d
  step : t.step = s.step
  sent : List.Forall₂ (fun a b => a.kind = b.kind ∧ a.reply = b.reply ∧ (a.bytes = b.bytes ∨ Twins pin pin' a.bytes b.bytes))
    s.sent t.sent

/-! ## Pieces of program -/

/-- Started alike, `m` gives the same and ends alike. -/
def Pair (pin pin' : Str) {β : Type} (m m' : M σ α β) : Prop :=
  ∀ s t, Alike pin pin' s t → (m s).1 = (m' t).1 ∧ Alike pin pin' (m s).2 (m' t).2

variable {pin pin' : Str}

theorem Pair.bind {β γ : Type} {m m' : M σ α β} {g g' : β → M σ α γ} (h1 : Pair pin pin' m m')
    (h2 : ∀ b, Pair pin pin' (g b) (g' b)) : Pair pin pin' (m.bind g) (m'.bind g') := by
  intro s t h
  obtain ⟨e, h'⟩ := h1 s t h
  unfold M.bind
  rcases hs : m s with ⟨r, s'⟩
  rcases ht : m' t with ⟨r', t'⟩
  rw [hs, ht] at e h'
  simp only at e h'
  subst e
  cases r with
  | ok b => exact h2 b s' t' h'
  | err => exact ⟨rfl, h'⟩
  | panic => exact ⟨rfl, h'⟩

theorem Pair.lift {β : Type} (o : Outcome β) : Pair pin pin' (M.lift (σ := σ) (α := α) o) (M.lift o) :=
  fun _ _ h => ⟨rfl, h⟩

theorem Pair.deferred {β : Type} {m m' : M σ α β} {l l' : M σ α Unit} (h1 : Pair pin pin' m m') (h2 : Pair pin pin' l l') :
    Pair pin pin' (M.deferred m l) (M.deferred m' l') := by
  intro s t h
  obtain ⟨e, h'⟩ := h1 s t h
  obtain ⟨e', h''⟩ := h2 _ _ h'
  unfold M.deferred
  simp only
  rw [← e, ← e']
  exact ⟨rfl, h''⟩

/-- Assignments to other fields. -/
theorem Pair.modify {f : Dialog σ α → Dialog σ α} (h : ∀ r d, f (withPin r d) = withPin r (f d)) :
    Pair pin pin' (M.modify f) (M.modify f) := by
  intro s t hs
  refine ⟨rfl, ?_, ?_, hs.step, hs.sent⟩
  · show f s.d = withPin pin (f s.d)
    rw [← h, ← hs.left]
  · show f t.d = withPin pin' (f s.d)
    rw [← h, ← hs.right]

/-- A program that looks at the dialog, but not at the PIN. -/
theorem Pair.look {β γ : Type} {f : Dialog σ α → γ} {m : γ → M σ α β} (h : ∀ r d, f (withPin r d) = f d)
    (hm : ∀ c, Pair pin pin' (m c) (m c)) : Pair pin pin' (fun s => m (f s.d) s) (fun s => m (f s.d) s) := by
  intro s t hs
  have e : f t.d = f s.d := by rw [hs.right, h]
  simp only [e]
  exact hm _ s t hs

theorem segs_ne_err (ss : List (Option Seg)) : marshalSegs ss ≠ .err := by
  induction ss with
  | nil => simp [marshalSegs]
  | cons s r ih =>
    have := segOpt_ne_err s
    rw [marshalSegs]
    cases h1 : marshalSegOpt s <;> cases h2 : marshalSegs r <;> simp_all

theorem bytes_ne_err (m : BasicMessage) (segs : List (Option Seg)) : m.bytes segs ≠ .err := by
  unfold BasicMessage.bytes
  have h1 := seg_ne_err m.header.seg
  have h2 := segOpt_ne_err m.sigBegin
  have h3 := segs_ne_err segs
  have h4 := segOpt_ne_err m.sigEnd
  have h5 := seg_ne_err m.end_.seg
  cases e1 : m.header.seg.marshal <;> cases e2 : marshalSegOpt m.sigBegin <;> cases e3 : marshalSegs segs <;>
    cases e4 : marshalSegOpt m.sigEnd <;> cases e5 : m.end_.seg.marshal <;> simp_all

theorem marshal_msg_ne_err {m : BasicMessage} {segs : List (Option Seg)} (hc : m.content = some segs) : m.marshal ≠ .err := by
  unfold BasicMessage.marshal BasicMessage.setSize
  rw [hc]
  simp only
  have h1 := bytes_ne_err m segs
  cases e1 : m.bytes segs with
  | err => exact absurd e1 h1
  | panic => simp
  | ok b =>
    simp only [Outcome.map', Outcome.bind]
    split
    · have := bytes_ne_err { m with header := { m.header with size := b.length }, content := some segs } segs
      cases e2 : BasicMessage.bytes _ segs with
      | err => exact absurd e2 this
      | panic => simp
      | ok b => simp
    · simp

theorem encrypt_ne_err {m : BasicMessage} {segs : List (Option Seg)} (hc : m.content = some segs) {p : CryptoProvider}
    (hp : p.key.pin ≠ []) (now : Time.Civil) : m.encrypt p now ≠ .err := by
  unfold BasicMessage.encrypt CryptoProvider.encrypt
  rw [hc]
  have h2 := segOpt_ne_err m.sigBegin
  have h3 := segs_ne_err segs
  have h4 := segOpt_ne_err m.sigEnd
  cases e2 : marshalSegOpt m.sigBegin <;> cases e3 : marshalSegs segs <;> cases e4 : marshalSegOpt m.sigEnd <;> simp_all

/-- A message that cannot be sent although there is a PIN makes the program panic. -/
theorem requestEncrypted_panics {w : World σ α} {k : Kind} {m : BasicMessage} {segs : List (Option Seg)}
    (hc : m.content = some segs) {s : St σ α} (hp : s.d.crypto.key.pin ≠ []) (hn : (requestEncrypted w k m s).2.sent = s.sent) :
    requestEncrypted w k m s = (.panic, s) := by
  unfold requestEncrypted at *
  cases h1 : m.encrypt s.d.crypto (w.env s.step).encryptTime with
  | err => exact absurd h1 (encrypt_ne_err hc hp _)
  | panic => rfl
  | ok x =>
    rw [h1] at hn
    simp only at hn ⊢
    unfold request at *
    obtain ⟨_, _, _, _, _, h6⟩ := encrypt_msg h1
    cases h2 : x.msg.marshal with
    | err => exact absurd h2 (marshal_msg_ne_err h6)
    | panic => rfl
    | ok r => rw [h2] at hn; simp at hn

/-- The message of either PIN. -/
theorem twins_of {segs : List (Option Seg)} {h : MsgHeader} {q : MsgEnd} {v : Version}
    {p : SignatureProvider} {c : CryptoProvider} {t t' : Time.Civil} {m m' n n' : BasicMessage} {x y : EncryptedMessage} {a b : Bytes}
    (hp : p.key.pin = c.key.pin) (hz : h.size = -1)
    (h1 : BasicMessage.sign ⟨h, q, none, none, some segs, v, []⟩ p t = .ok m)
    (h2 : m.encrypt c t' = .ok x) (h3 : x.msg.marshal = .ok (a, m'))
    (g1 : BasicMessage.sign ⟨h, q, none, none, some segs, v, []⟩ { p with key := { p.key with pin := pin' } } t = .ok n)
    (g2 : n.encrypt { c with key := { c.key with pin := pin' } } t' = .ok y) (g3 : y.msg.marshal = .ok (b, n')) :
    Twins p.key.pin pin' a b := by
  obtain ⟨hne, b0, b1, hk, ha, b3, l4, u0, u1, u2, u3, u4, u5, u6, u7, u8⟩ := pieces_of hp h1 h2 h3
  obtain ⟨gne, c0, c1, gk, ga, c3, k4, v0, v1, v2, v3, v4, v5, v6, v7, v8⟩ := pieces_of rfl g1 g2 g3
  have hv : m.version = n.version ∧ m.end_ = n.end_ := by
    unfold BasicMessage.sign BasicMessage.setPositions at h1 g1
    simp only [Outcome.ok.injEq, positionOpt] at h1 g1
    rw [← h1, ← g1]
    exact ⟨rfl, rfl⟩
  have hcon : m.content = n.content := u8.trans v8.symm
  have e1 : c1 = b1 := by
    rw [hv.1] at u1
    simpa using v1.symm.trans u1
  have e2 : gk = hk := by simpa using v2.symm.trans u2
  have e3 : k4 = l4 := by
    rw [hcon] at u3
    have := v3.symm.trans u3
    exact List.map_injective_iff.2 (fun _ _ h => Outcome.ok.inj h) this
  have e4 : c3 = b3 := by
    rw [hv.2] at u5
    simpa using v5.symm.trans u5
  subst e1 e2 e3 e4
  have hlen : ((m.content.getD []).filterMap id).length = k4.length := by
    have := congrArg List.length u3
    simpa using this
  have hlen' : ((n.content.getD []).filterMap id).length = k4.length := by rw [← hcon]; exact hlen
  have hha := signatureEnd_bytes hne u4
  have hga := signatureEnd_bytes gne v4
  obtain ⟨T, hT⟩ := msgHeader_marshal { h with position := 1 }
  have size : ∀ {m m' : BasicMessage} {b : Bytes}, m.cache = [] → m.header.size = -1 → m.marshal = .ok (b, m') →
      ∃ k : Nat, m'.header.size = k ∧ (b.length < 10 ^ 12 → k = b.length) := by
    intro m m' b hc hs hm
    have h18 := C18_size hc hm (by omega) (by omega)
    obtain ⟨_, b0, _, _, _, rfl⟩ := marshal_fresh hc hm
    refine ⟨b0.length, rfl, fun hl => ?_⟩
    obtain ⟨_, _, _, _, _, _, h⟩ := h18 hl
    have h : (b0.length : Int) = b.length := h
    exact_mod_cast h
  have hz1 : x.msg.header.size = -1 ∧ y.msg.header.size = -1 := by
    rw [(encrypt_msg h2).1, (encrypt_msg g2).1]
    unfold BasicMessage.sign BasicMessage.setPositions at h1 g1
    simp only [Outcome.ok.injEq, positionOpt] at h1 g1
    rw [← h1, ← g1]
    exact ⟨hz, hz⟩
  obtain ⟨k, hk, hkl⟩ := size (encrypt_msg h2).2.2.1 hz1.1 h3
  obtain ⟨k', hk', hkl'⟩ := size (encrypt_msg g2).2.2.1 hz1.2 g3
  rw [u7, hk] at u0
  rw [v7, hk'] at v0
  have t1 := hT k
  have t2 := hT k'
  simp only at t1 t2
  rw [u0] at t1
  rw [v0] at t2
  cases T with
  | err => cases t1
  | panic => cases t1
  | ok r =>
    simp only [Outcome.map', Outcome.ok.injEq] at t1 t2
    refine ⟨⟨r, c1, gk, k4, endVersion v, c3⟩, k, k', p.controlRef, p.key.keyName, ?_, ?_, hkl, hkl'⟩
    · have hi : itoa 1 = b!"1" := by decide +kernel
      rw [u6, t1, hha, hlen, hi]
      simp [Parts.sized, Parts.bytes, Parts.data]
    · have hi : itoa 1 = b!"1" := by decide +kernel
      rw [v6, t2, hga, hlen', hi]
      simp [Parts.sized, Parts.bytes, Parts.data]

/-- A signed message on its way: sent with either PIN or with neither. -/
theorem pair_request {w : World σ α} (hb : PinBlind w pin pin') (hp : Sendable pin) (hq : Sendable pin') (k : Kind)
    {segs : List (Option Seg)} {h : MsgHeader} {q : MsgEnd} {v : Version} (hr : h.ref = none) (hz : h.size = -1)
    {p p' : SignatureProvider} {now : Time.Civil} {m n : BasicMessage} {s t : St σ α} (ha : Alike pin pin' s t)
    (h0 : p.key.pin = pin) (h0' : p' = { p with key := { p.key with pin := pin' } })
    (h1 : BasicMessage.sign ⟨h, q, none, none, some segs, v, []⟩ p now = .ok m)
    (g1 : BasicMessage.sign ⟨h, q, none, none, some segs, v, []⟩ p' now = .ok n) :
    (requestEncrypted w k m s).1 = (requestEncrypted w k n t).1 ∧
      Alike pin pin' (requestEncrypted w k m s).2 (requestEncrypted w k n t).2 := by
  subst h0'
  have hcs : s.d.crypto.key.pin = pin := by rw [ha.left]; rfl
  have hct : t.d.crypto = { s.d.crypto with key := { s.d.crypto.key with pin := pin' } } := by rw [ha.right]; rfl
  obtain ⟨m', hm, hs⟩ := sign_ok ⟨h, q, none, none, some segs, v, []⟩ segs rfl p now
  obtain ⟨n', hn, gs⟩ := sign_ok ⟨h, q, none, none, some segs, v, []⟩ segs rfl { p with key := { p.key with pin := pin' } } now
  rw [h1] at hm
  rw [g1] at hn
  cases hm
  cases hn
  obtain ⟨ms, hmc, _, hmw⟩ := hs.content
  obtain ⟨ns, hnc, _, hnw⟩ := gs.content
  obtain ⟨_, _, q3⟩ := requestEncrypted_spec w k m ms hmc (by rw [hs.header]; exact hr) s
  obtain ⟨_, _, q3'⟩ := requestEncrypted_spec w k n ns hnc (by rw [gs.header]; exact hr) t
  have hmh := hs.writable
  have hnh := gs.writable
  have hd : m.header.dialogId = n.header.dialogId := by rw [hs.header, gs.header]
  rw [hmw] at q3
  rw [hnw, ← hd] at q3'
  rw [hct] at q3'
  have l1 := hp.2
  have l2 := hq.2
  have p1 : s.d.crypto.key.pin ≠ [] := by rw [hcs]; exact hp.1
  have p2 : t.d.crypto.key.pin ≠ [] := by rw [hct]; exact hq.1
  have p3 := hq.1
  simp only [List.mem_cons, List.not_mem_nil, or_false, forall_eq_or_imp, forall_eq, h0] at hmh hnh q3 q3'
  have iff1 : ((∀ x ∈ m.sigBegin, Writable x) ∧ ∀ x ∈ m.sigEnd, Writable x) ↔
      ((∀ x ∈ n.sigBegin, Writable x) ∧ ∀ x ∈ n.sigEnd, Writable x) := by
    rw [hmh, hnh]
    simp only [l1, l2]
  rcases q3 with ⟨x1, x2, _⟩ | ⟨x1, _⟩ <;> rcases q3' with ⟨y1, y2, _⟩ | ⟨y1, _⟩
  · rw [requestEncrypted_panics hmc p1 x2, requestEncrypted_panics hnc p2 y2]
    exact ⟨rfl, ha⟩
  · have j := iff1.2 ⟨y1.2.2.1, y1.2.2.2.2.1⟩
    exact absurd ⟨hcs ▸ p1, y1.2.1, j.1, y1.2.2.2.1, j.2, y1.2.2.2.2.2⟩ x1
  · have j := iff1.1 ⟨x1.2.2.1, x1.2.2.2.2.1⟩
    exact absurd ⟨p3, x1.2.1, j.1, x1.2.2.2.1, j.2, x1.2.2.2.2.2⟩ y1
  · have sends : ∀ {m : BasicMessage} {s : St σ α}, (∃ e : Sent σ, (requestEncrypted w k m s).2.sent = s.sent ++ [e]) →
        ∃ (x : EncryptedMessage) (m' : BasicMessage) (b : Bytes),
        m.encrypt s.d.crypto (w.env s.step).encryptTime = .ok x ∧ x.msg.marshal = .ok (b, m') ∧
        requestEncrypted w k m s = (receive w.decoders ((w.env s.step).transport b),
          { s with sent := s.sent ++ [⟨k, m, x.msg, b, receive w.decoders ((w.env s.step).transport b)⟩] }) := by
      rintro m s ⟨e, he⟩
      unfold requestEncrypted request at *
      cases h1 : m.encrypt s.d.crypto (w.env s.step).encryptTime with
      | err => rw [h1] at he; simp at he
      | panic => rw [h1] at he; simp at he
      | ok x =>
        rw [h1] at he
        simp only at he ⊢
        cases h2 : x.msg.marshal with
        | err => rw [h2] at he; simp at he
        | panic => rw [h2] at he; simp at he
        | ok r => exact ⟨x, r.2, r.1, rfl, h2, by simp [h2]⟩
    rename_i ex ey
    obtain ⟨e, he, _⟩ := ex
    obtain ⟨e', he', _⟩ := ey
    obtain ⟨x, m', a, z1, z2, z3⟩ := sends ⟨e, he⟩
    obtain ⟨y, n', b, w1, w2, w3⟩ := sends ⟨e', he'⟩
    rw [hct, ha.step] at w1
    have ht : Twins pin pin' a b := by
      have := twins_of (pin' := pin') (p := p) (c := s.d.crypto) (by rw [h0, hcs]) hz h1 z1 z2 g1 w1 w2
      rwa [h0] at this
    have hans := hb s.step a b ht
    rw [z3, w3, ha.step, hans]
    refine ⟨rfl, ha.left, ha.right, rfl, ?_⟩
    exact List.rel_append ha.sent (.cons ⟨rfl, rfl, Or.inr ht⟩ .nil)

theorem pair_exchange {w : World σ α} (hb : PinBlind w pin pin') (hp : Sendable pin) (hq : Sendable pin') (k : Kind)
    (segs : List (Option Seg)) (v : Version) : Pair pin pin' (exchange w k segs v) (exchange w k segs v) := by
  intro s t ha
  unfold exchange M.bind
  simp only [newMessage_ok]
  unfold sign
  have hs : s.d.sig.key.pin = pin := by rw [ha.left]; rfl
  have ht : t.d.sig = { s.d.sig with key := { s.d.sig.key with pin := pin' } } := by rw [ha.right]; rfl
  have e1 : t.d.version = s.d.version := by rw [ha.right]; rfl
  have e2 : t.d.dialogId = s.d.dialogId := by rw [ha.right]; rfl
  have e3 : t.d.messageCount = s.d.messageCount := by rw [ha.right]; rfl
  have ha' : Alike pin pin' { s with d := { s.d with messageCount := s.d.messageCount + 1 }, step := s.step + 1 }
      { t with d := { t.d with messageCount := t.d.messageCount + 1 }, step := t.step + 1 } := by
    refine ⟨?_, ?_, by simp [ha.step], ha.sent⟩
    · have := ha.left
      simp only [withPin] at this ⊢
      exact congrArg (fun d : Dialog σ α => { d with messageCount := s.d.messageCount + 1 }) this
    · simp only
      rw [ha.right]
      rfl
  obtain ⟨m, hm, _⟩ := sign_ok ⟨newMsgHeader (-1) s.d.version.number s.d.dialogId (s.d.messageCount + 1),
    ⟨-1, s.d.messageCount + 1⟩, none, none, some segs, v, []⟩ segs rfl s.d.sig (w.env (s.step + 1)).signTime
  obtain ⟨n, hn, _⟩ := sign_ok ⟨newMsgHeader (-1) s.d.version.number s.d.dialogId (s.d.messageCount + 1),
    ⟨-1, s.d.messageCount + 1⟩, none, none, some segs, v, []⟩ segs rfl t.d.sig (w.env (s.step + 1)).signTime
  have key := pair_request hb hp hq k rfl rfl ha' hs ht hm hn
  simp only [e1, e2, e3, ha.step] at key ⊢
  rw [hm, hn]
  exact key

theorem pair_syncRequest {w : World σ α} (hb : PinBlind w pin pin') (hp : Sendable pin) (hq : Sendable pin') :
    Pair pin pin' (syncRequest w) (syncRequest w) := by
  intro s t ha
  unfold syncRequest M.bind
  simp only [newMessage_ok]
  unfold sign
  have hs : s.d.sig.key.pin = pin := by rw [ha.left]; rfl
  have ht : t.d.sig = { s.d.sig with key := { s.d.sig.key with pin := pin' } } := by rw [ha.right]; rfl
  have e0 : syncSegments t.d = syncSegments s.d := by rw [ha.right]; rfl
  have e1 : t.d.version = s.d.version := by rw [ha.right]; rfl
  have e2 : t.d.dialogId = s.d.dialogId := by rw [ha.right]; rfl
  have e3 : t.d.messageCount = s.d.messageCount := by rw [ha.right]; rfl
  have ha' : Alike pin pin'
      { s with d := { s.d with messageCount := s.d.messageCount + 1, crypto := { s.d.crypto with clientSystemId := c!"0" } },
               step := s.step + 1 }
      { t with d := { t.d with messageCount := t.d.messageCount + 1, crypto := { t.d.crypto with clientSystemId := c!"0" } },
               step := t.step + 1 } := by
    refine ⟨?_, ?_, by simp [ha.step], ha.sent⟩
    · have := congrArg (fun d : Dialog σ α =>
        { d with messageCount := s.d.messageCount + 1, crypto := { d.crypto with clientSystemId := c!"0" } }) ha.left
      simp only [withPin] at this ⊢
      exact this
    · simp only
      rw [ha.right]
      rfl
  obtain ⟨m, hm, _⟩ := sign_ok ⟨newMsgHeader (-1) s.d.version.number s.d.dialogId (s.d.messageCount + 1),
    ⟨-1, s.d.messageCount + 1⟩, none, none, some (syncSegments s.d), s.d.version, []⟩ (syncSegments s.d) rfl s.d.sig
    (w.env (s.step + 1)).signTime
  obtain ⟨n, hn, _⟩ := sign_ok ⟨newMsgHeader (-1) s.d.version.number s.d.dialogId (s.d.messageCount + 1),
    ⟨-1, s.d.messageCount + 1⟩, none, none, some (syncSegments s.d), s.d.version, []⟩ (syncSegments s.d) rfl t.d.sig
    (w.env (s.step + 1)).signTime
  have key := pair_request hb hp hq .sync rfl rfl ha' hs ht hm hn
  simp only [e0, e1, e2, e3, ha.step] at key ⊢
  rw [hm, hn]
  exact key

theorem pair_exchangePlain (w : World σ α) (k : Kind) (segs : List (Option Seg)) (v : Version) :
    Pair pin pin' (exchangePlain w k segs v) (exchangePlain w k segs v) := by
  intro s t ha
  unfold exchangePlain M.bind
  simp only [newMessage_ok, M.lift]
  have e1 : t.d.version = s.d.version := by rw [ha.right]; rfl
  have e2 : t.d.dialogId = s.d.dialogId := by rw [ha.right]; rfl
  have e3 : t.d.messageCount = s.d.messageCount := by rw [ha.right]; rfl
  have ha' : Alike pin pin' { s with d := { s.d with messageCount := s.d.messageCount + 1 }, step := s.step + 1 }
      { t with d := { t.d with messageCount := t.d.messageCount + 1 }, step := t.step + 1 } := by
    refine ⟨?_, ?_, by simp [ha.step], ha.sent⟩
    · have := congrArg (fun d : Dialog σ α => { d with messageCount := s.d.messageCount + 1 }) ha.left
      simp only [withPin] at this ⊢
      exact this
    · simp only
      rw [ha.right]
      rfl
  simp only [e1, e2, e3, ha.step] at ha' ⊢
  cases BasicMessage.setPositions _ with
  | err => exact ⟨rfl, ha'⟩
  | panic => exact ⟨rfl, ha'⟩
  | ok m =>
    simp only
    unfold request
    cases m.marshal with
    | err => exact ⟨rfl, ha'⟩
    | panic => exact ⟨rfl, ha'⟩
    | ok r =>
      refine ⟨rfl, ha'.left, ha'.right, ha'.step, ?_⟩
      exact List.rel_append ha.sent (.cons ⟨rfl, rfl, Or.inl rfl⟩ .nil)

theorem pair_takeDialogId (m : Decrypted σ) : Pair pin pin' (takeDialogId (α := α) m) (takeDialogId m) := by
  unfold takeDialogId
  cases m.header.dialogId with
  | none => exact fun s t h => ⟨rfl, h⟩
  | some i => exact Pair.modify (f := fun d => { d with dialogId := i }) fun _ _ => rfl

theorem pair_updateSecurityFunction (w : World σ α) (m : Decrypted σ) :
    Pair pin pin' (updateSecurityFunction w m) (updateSecurityFunction w m) := by
  intro s t ha
  unfold updateSecurityFunction
  split
  · exact ⟨rfl, ha⟩
  · cases supportedFunctions w m with
    | err => exact ⟨rfl, ha⟩
    | panic => exact ⟨rfl, ha⟩
    | ok fs =>
      simp only [ha.step]
      cases fs[(w.env s.step).mapOrder % fs.length]? with
      | none => exact ⟨rfl, ha⟩
      | some fn =>
        have e : t.d.securityFn = s.d.securityFn := by rw [ha.right]; rfl
        simp only [e]
        split
        · exact ⟨trivial, ha⟩
        · have := (Pair.modify (f := setSecurityFunction fn) (fun _ _ => rfl) s t ha).2
          exact ⟨trivial, this.left, this.right, rfl, this.sent⟩

theorem pair_accounts (w : World σ α) (xs : List (Decoded σ)) : Pair pin pin' (parseAccounts w xs) (parseAccounts w xs) := by
  induction xs with
  | nil => exact .lift _
  | cons x xs ih => exact .bind (.lift _) fun a => .bind (.modify fun _ _ => rfl) fun _ => ih

theorem pair_pinTan (w : World σ α) (m : Decrypted σ) : Pair pin pin' (parsePinTan w m) (parsePinTan w m) := by
  unfold parsePinTan
  split
  · exact .lift _
  · exact .bind (.lift _) fun _ => .modify fun _ _ => rfl

theorem pair_bank (w : World σ α) (m : Decrypted σ) : Pair pin pin' (parseBankParameterData w m) (parseBankParameterData w m) := by
  unfold parseBankParameterData
  split
  · exact .lift _
  · exact .bind (.lift _) fun _ => .bind (.modify fun _ _ => rfl) fun _ => .bind (.lift _) fun _ =>
      .bind (.modify fun _ _ => rfl) fun _ => .bind (pair_pinTan w m) fun _ => .modify fun _ _ => rfl

theorem pair_user (w : World σ α) (m : Decrypted σ) : Pair pin pin' (parseUserParameterData w m) (parseUserParameterData w m) := by
  refine .bind ?_ fun _ => pair_accounts w _
  unfold parseUser
  split
  · exact .lift _
  · exact .bind (.lift _) fun _ => .modify fun _ _ => rfl

/-! ## Calls -/

section
variable {w : World σ α} (hb : PinBlind w pin pin') (hp : Sendable pin) (hq : Sendable pin')
include hb hp hq

theorem pair_end : Pair pin pin' (end_ w) (end_ w) :=
  .look (f := fun d => (d.dialogId, d.version))
    (m := fun c => (exchange w .end_ [some (dialogEndSeg c.1)] c.2).bind fun m => M.lift (checkAcks m)) (fun _ _ => rfl)
    fun _ => .bind (pair_exchange hb hp hq _ _ _) fun _ => .lift _

theorem pair_sync : Pair pin pin' (syncClientSystemId w) (syncClientSystemId w) := by
  refine (pair_syncRequest hb hp hq).bind fun m => (pair_takeDialogId m).bind fun _ => (Pair.lift _).bind fun _ =>
    (pair_updateSecurityFunction w m).bind fun _ => .bind ?_ fun _ => (pair_bank w m).bind fun _ => (pair_user w m).bind fun _ =>
      (pair_end hb hp hq).bind fun _ => ?_
  · unfold takeClientSystemId
    split
    · exact .lift _
    · exact .bind (.lift _) fun id => .modify fun _ _ => rfl
  · exact .look (f := fun d => d.clientSystemId) (m := fun c => M.lift (.ok c)) (fun _ _ => rfl) fun _ => .lift _

theorem pair_init : Pair pin pin' (init w) (init w) := by
  refine .bind ?_ fun _ => .bind (.modify fun _ _ => rfl) fun _ => ?_
  · refine .look (f := fun d => d.clientSystemId) (m := fun c s => if c = c!"0" then
      ((syncClientSystemId w).bind fun id => M.modify fun d => { d with clientSystemId := id }) s else (.ok (), s))
      (fun _ _ => rfl) fun c => ?_
    by_cases hc : c = c!"0"
    · simp only [hc, if_true]
      exact .bind (pair_sync hb hp hq) fun _ => .modify fun _ _ => rfl
    · simp only [hc, if_false]
      exact fun s t h => ⟨rfl, h⟩
  · refine .look (f := fun d => (initSegments d, d.version))
      (m := fun c => (exchange w .init c.1 c.2).bind fun m => opened w m) (fun _ _ => rfl) fun c => ?_
    exact .bind (pair_exchange hb hp hq _ _ _) fun m => (pair_takeDialogId m).bind fun _ => (pair_bank w m).bind fun _ =>
      (pair_user w m).bind fun _ => .bind (.lift _) fun _ => .bind (.lift _) fun _ => pair_updateSecurityFunction w m

theorem pair_send (j : Job) : Pair pin pin' (sendMessage w j) (sendMessage w j) :=
  (pair_init hb hp hq).bind fun _ => .deferred
    ((pair_exchange hb hp hq _ _ _).bind fun _ => (Pair.lift _).bind fun _ => .lift _) (pair_end hb hp hq)

theorem pair_syncUser : Pair pin pin' (syncUserParameterData w) (syncUserParameterData w) :=
  (pair_init hb hp hq).bind fun _ => .deferred (.lift _) (pair_end hb hp hq)

end

theorem pair_sendAnonymous (w : World σ α) (j : Job) :
    Pair pin pin' (sendAnonymousMessage w j) (sendAnonymousMessage w j) := by
  have hend : Pair pin pin' (anonymousEnd w) (anonymousEnd w) :=
    .look (f := fun d => (d.dialogId, d.version))
      (m := fun c => (exchangePlain w .end_ [some (dialogEndSeg c.1)] c.2).bind fun m => M.lift (checkAcks m)) (fun _ _ => rfl)
      fun _ => .bind (pair_exchangePlain w _ _ _) fun _ => .lift _
  refine .bind (.bind (.modify fun _ _ => rfl) fun _ => ?_) fun _ => .deferred
    (.bind (pair_exchangePlain w _ _ _) fun _ => .bind (.lift _) fun _ => .lift _) hend
  refine .look (f := fun d => (anonymousSegments d, d.version))
    (m := fun c => (exchangePlain w .init c.1 c.2).bind fun m => anonymousOpened w m) (fun _ _ => rfl) fun c => ?_
  exact .bind (pair_exchangePlain w _ _ _) fun m => (pair_takeDialogId m).bind fun _ => (pair_bank w m).bind fun _ =>
    (pair_user w m).bind fun _ => .bind (.lift _) fun _ => .lift _

theorem pair_run {w : World σ α} (hb : PinBlind w pin pin') (hp : Sendable pin) (hq : Sendable pin') {c : Call}
    (hc : ∀ r, c ≠ .setPin r) : Pair pin pin' (run w c) (run w c) := by
  have key : ∀ {β : Type} {m : M σ α β}, Pair pin pin' m m → Pair pin pin' (fun s => void (m s)) (fun s => void (m s)) := by
    intro β m hm s t ha
    obtain ⟨e, h⟩ := hm s t ha
    exact ⟨congrArg (Outcome.map' fun _ => ()) e, h⟩
  cases c with
  | send j => exact key (pair_send hb hp hq j)
  | sendAnonymous j => exact key (pair_sendAnonymous w j)
  | sync => exact key (pair_sync hb hp hq)
  | syncUser => exact key (pair_syncUser hb hp hq)
  | setPin r => exact absurd rfl (hc r)

theorem alike_runAll {w : World σ α} (hb : PinBlind w pin pin') (hp : Sendable pin) (hq : Sendable pin') (cs : List Call)
    (hc : ∀ r, .setPin r ∉ cs) : ∀ s t, Alike pin pin' s t → Alike pin pin' (runAll w cs s) (runAll w cs t) := by
  induction cs with
  | nil => exact fun _ _ h => h
  | cons c cs ih =>
    intro s t h
    refine ih (fun r hr => hc r (by simp [hr])) _ _ ?_
    exact (pair_run hb hp hq (fun r hr => hc r (by simp [hr])) s t h).2

/-! ## C134 -/

/-- C134: two users do the same with new dialogs but for the PIN they set first, and the bank does not care which
PIN it is.  Then the two dialogs are the same but for the PIN, whatever calls were made, and so are the messages:
of the same kinds, answered alike, and message by message the same bytes, except for the PIN in the signature
end and the lengths that count it. -/
theorem C134_history {w : World σ α} (hb : PinBlind w pin pin') (hp : Sendable pin) (hq : Sendable pin')
    (bank : BankId) (user : Str) (v : Version) (name version : Str) (cs : List Call) (hc : ∀ r, .setPin r ∉ cs) :
    Alike pin pin' (runAll w (.setPin pin :: cs) ⟨newPinTanDialog w bank user v name version, 0, []⟩)
      (runAll w (.setPin pin' :: cs) ⟨newPinTanDialog w bank user v name version, 0, []⟩) :=
  alike_runAll hb hp hq cs hc _ _ ⟨rfl, rfl, rfl, .nil⟩

/-- C134: and every further call gives the two of them the same: the same answer, the same client system ID, or the
same failure. -/
theorem C134_results {w : World σ α} (hb : PinBlind w pin pin') (hp : Sendable pin) (hq : Sendable pin')
    (bank : BankId) (user : Str) (v : Version) (name version : Str) (cs : List Call) (hc : ∀ r, .setPin r ∉ cs) (j : Job) :
    let s := runAll w (.setPin pin :: cs) ⟨newPinTanDialog w bank user v name version, 0, []⟩
    let t := runAll w (.setPin pin' :: cs) ⟨newPinTanDialog w bank user v name version, 0, []⟩
    (sendMessage w j s).1 = (sendMessage w j t).1 ∧ (syncClientSystemId w s).1 = (syncClientSystemId w t).1 ∧
    (syncUserParameterData w s).1 = (syncUserParameterData w t).1 ∧
    (sendAnonymousMessage w j s).1 = (sendAnonymousMessage w j t).1 := by
  intro s t
  have h := C134_history hb hp hq bank user v name version cs hc
  exact ⟨(pair_send hb hp hq j s t h).1, (pair_sync hb hp hq s t h).1, (pair_syncUser hb hp hq s t h).1,
    (pair_sendAnonymous w j s t h).1⟩

namespace Sample

/-- The messages of a call with a PIN. -/
def saidWith (pin : Str) (c : Call) : List Bytes :=
  (runAll (world good) [.setPin pin, c] ⟨newPinTanDialog (world good) ⟨280, c!"10000000"⟩ c!"user" .fints300 [] [], 0, []⟩).sent.map (·.bytes)

/-- A bank that does not look at what it is sent does not look at the PIN. -/
theorem blind (a : Nat → Outcome Body) (p q : Str) : PinBlind (world a) p q := fun _ _ _ _ => rfl

/-- A bank that does look at what it is sent, and answers only what starts like a message. -/
def careful : World Bytes Bytes :=
  { world good with env := fun n => { (world good).env n with
      transport := fun b => if b.take 10 = b!"HNHBK:1:3+" then good n else .err } }

theorem careful_blind (p q : Str) : PinBlind careful p q := by
  rintro n _ _ ⟨r, k, k', ref, key, rfl, rfl, _⟩
  have : ∀ (d : Bytes) who, (r.sized d who).take 10 = b!"HNHBK:1:3+" := by
    intro d who
    unfold Parts.sized Parts.bytes
    simp only [List.append_assoc]
    rw [List.take_append_of_le_length (by simp)]
    rfl
  simp only [careful, this]

theorem sendable (p : Str) (hp : p ≠ []) (hl : p.all (fun c => decide (c.toNat ≤ 255)) = true) : Sendable p :=
  ⟨hp, latin1_of_all hl⟩

end Sample

example : Alike c!"1234" c!"geheim"
    (runAll (Sample.careful) [.setPin c!"1234", .sync, .send Sample.work]
      ⟨newPinTanDialog (Sample.careful) ⟨280, c!"10000000"⟩ c!"user" .fints300 [] [], 0, []⟩)
    (runAll (Sample.careful) [.setPin c!"geheim", .sync, .send Sample.work]
      ⟨newPinTanDialog (Sample.careful) ⟨280, c!"10000000"⟩ c!"user" .fints300 [] [], 0, []⟩) :=
  C134_history (Sample.careful_blind _ _) (Sample.sendable _ (by decide) (by decide)) (Sample.sendable _ (by decide) (by decide))
    _ _ _ _ _ [.sync, .send Sample.work] (by simp)

set_option maxRecDepth 20000 in
/-- Messages were sent, and they do differ: the PIN is two bytes longer.  Without a PIN there are none, so that the
hypothesis on the PIN is needed. -/
example : (Sample.saidWith c!"1234" .sync).map List.length = [382, 296] ∧
    (Sample.saidWith c!"geheim" .sync).map List.length = [384, 298] ∧ Sample.saidWith [] .sync = [] := by
  decide +kernel

end Verif.Dialog

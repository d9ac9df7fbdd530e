import Verif.Dialog.Delivery
import Verif.Dialog.StateProps

/-
C96: what reaches the transport, and with which PIN.
-/

namespace Verif.Dialog

open GoLib Element Element.Spec Segment Message Domain Transport

variable {σ α : Type}

/-! ## Handing over messages -/

/-- Who signs in a dialog. -/
def signer (d : Dialog σ α) : Signer := ⟨d.sig.key.pin, d.sig.controlRef, d.sig.key.keyName⟩

/-- Both providers have the same PIN. -/
def OnePin (d : Dialog σ α) : Prop := d.sig.key.pin = d.crypto.key.pin

/-- Whose dialog it is, with the key for wrapping. -/
def owner (d : Dialog σ α) : PinKey × BankId × Str := (d.crypto.key, d.bankId, d.userId)

/-- From `s` to `t` the messages `E` were handed over, each at its own step. -/
structure Hands (P : Signer → Nat → Sent σ → Prop) (s t : St σ α) : Prop where
  same : signer t.d = signer s.d ∧ owner t.d = owner s.d ∧ s.step ≤ t.step
  log : ∃ E ns, t.sent = s.sent ++ E ∧ List.Forall₂ (P (signer s.d)) ns E ∧ ns.Pairwise (· < ·) ∧
    ∀ n ∈ ns, s.step < n ∧ n ≤ t.step

variable {P : Signer → Nat → Sent σ → Prop}

theorem Hands.refl (s : St σ α) : Hands P s s := ⟨⟨rfl, rfl, le_rfl⟩, [], [], by simp, .nil, .nil, by simp⟩

theorem OnePin.hands {s t : St σ α} (h : Hands P s t) (hs : OnePin s.d) : OnePin t.d := by
  have h1 := h.same.1
  unfold signer at h1
  simp only [Signer.mk.injEq] at h1
  unfold OnePin at *
  have h2 := congrArg (fun x => x.1.pin) h.same.2.1
  exact h1.1.trans (hs.trans h2.symm)

theorem Hands.trans {s t u : St σ α} (h1 : Hands P s t) (h2 : Hands P t u) : Hands P s u := by
  obtain ⟨⟨a1, a2, a3⟩, E, ns, a4, a5, a6, a7⟩ := h1
  obtain ⟨⟨b1, b2, b3⟩, F, ms, b4, b5, b6, b7⟩ := h2
  refine ⟨⟨b1.trans a1, b2.trans a2, a3.trans b3⟩, E ++ F, ns ++ ms, by rw [b4, a4, List.append_assoc], ?_, ?_, ?_⟩
  · exact List.rel_append a5 (a1 ▸ b5)
  · refine List.pairwise_append.2 ⟨a6, b6, fun a ha b hb => ?_⟩
    have := a7 a ha
    have := b7 b hb
    omega
  · intro n hn
    rcases List.mem_append.1 hn with h | h
    · have := a7 n h; omega
    · have := b7 n h; omega

/-- A piece of program that only hands over messages. -/
def Handing (P : Signer → Nat → Sent σ → Prop) {β : Type} (m : M σ α β) : Prop := ∀ s, OnePin s.d → Hands P s (m s).2

theorem Handing.bind {β γ : Type} {m : M σ α β} {g : β → M σ α γ} (h1 : Handing P m) (h2 : ∀ b, Handing P (g b)) :
    Handing P (m.bind g) := by
  intro s hs
  unfold M.bind
  have := h1 s hs
  rcases h : m s with ⟨r, s'⟩
  rw [h] at this
  cases r with
  | ok b => exact this.trans (h2 b s' (hs.hands this))
  | err => exact this
  | panic => exact this

theorem Handing.deferred {β : Type} {m : M σ α β} {l : M σ α Unit} (h1 : Handing P m) (h2 : Handing P l) :
    Handing P (M.deferred m l) := fun s hs => (h1 s hs).trans (h2 _ (hs.hands (h1 s hs)))

theorem Handing.lift {β : Type} (o : Outcome β) : Handing P (M.lift (σ := σ) (α := α) o) := fun s _ => .refl s

theorem Handing.of_logs {β : Type} {m : M σ α β} (h : Keeps logs m) : Handing P m := by
  intro s _
  have := h s
  unfold logs at this
  simp only [Prod.mk.injEq] at this
  obtain ⟨h1, h2, _, _, h6, h7, h3, h4, h5⟩ := this
  exact ⟨⟨by simp [signer, h3, h5], by simp [owner, h4, h6, h7], h2.ge⟩, [], [], by simpa using h1, .nil, .nil, by simp⟩

theorem Handing.of_outer {β : Type} {m : M σ α β} (h : Keeps outer m) : Handing P m :=
  .of_logs fun s => logs_of_outer (h s)

theorem Handing.of_core {β : Type} {m : M σ α β} (h : Keeps core m) : Handing P m := .of_outer h.outer_of_core

theorem Handing.modify {f : Dialog σ α → Dialog σ α}
    (h : ∀ d, signer (f d) = signer d ∧ owner (f d) = owner d) : Handing P (M.modify f) := fun s _ =>
  ⟨⟨(h s.d).1, (h s.d).2, le_rfl⟩, [], [], by simp [M.modify], .nil, .nil, by simp⟩

/-- One message was handed over. -/
theorem Hands.one {s t : St σ α} {e : Sent σ} (h1 : signer t.d = signer s.d) (h2 : owner t.d = owner s.d)
    (h3 : t.step = s.step + 1) (h4 : t.sent = s.sent ++ [e]) (h5 : P (signer s.d) (s.step + 1) e) : Hands P s t :=
  ⟨⟨h1, h2, by omega⟩, [e], [s.step + 1], h4, .cons h5 .nil, by simp, by simp [h3]⟩

/-- None was. -/
theorem Hands.none {s t : St σ α} (h1 : signer t.d = signer s.d) (h2 : owner t.d = owner s.d)
    (h3 : t.step = s.step + 1) (h4 : t.sent = s.sent) : Hands P s t :=
  ⟨⟨h1, h2, by omega⟩, [], [], by simpa using h4, .nil, .nil, by simp⟩

theorem handing_exchange (w : World σ α) (k : Kind) (segs : List (Option Seg)) (v : Version) :
    Handing (Delivered w) (exchange w k segs v) := by
  intro s hs
  unfold exchange M.bind
  simp only [newMessage_ok]
  unfold sign
  cases hm : BasicMessage.sign _ s.d.sig (w.env (s.step + 1)).signTime with
  | err => simp only; exact .none rfl rfl rfl rfl
  | panic => simp only; exact .none rfl rfl rfl rfl
  | ok m =>
    simp only
    rcases requestEncrypted_log w k m
      { s with d := { s.d with messageCount := s.d.messageCount + 1 }, step := s.step + 1 } with h | ⟨x, m', b, h1, h2, h3⟩
    · rw [h]; exact .none rfl rfl rfl rfl
    · rw [h3]
      exact .one rfl rfl rfl rfl (delivered_of hs hm h1 h2)

theorem handing_syncRequest (w : World σ α) : Handing (Delivered w) (syncRequest w) := by
  intro s hs
  unfold syncRequest M.bind
  simp only [newMessage_ok]
  unfold sign
  cases hm : BasicMessage.sign _ s.d.sig (w.env (s.step + 1)).signTime with
  | err => simp only; exact .none rfl rfl rfl rfl
  | panic => simp only; exact .none rfl rfl rfl rfl
  | ok m =>
    simp only [M.modify]
    rcases requestEncrypted_log w .sync m ⟨{ resetCrypto s.d with messageCount := s.d.messageCount + 1 }, s.step + 1, s.sent⟩ with
      h | ⟨x, m', b, h1, h2, h3⟩
    · unfold resetCrypto at h
      rw [h]; exact .none rfl rfl rfl rfl
    · unfold resetCrypto at h1 h3
      rw [h3]
      exact .one rfl rfl rfl rfl (delivered_of (by exact hs) hm h1 h2)

/-- A message that was handed to the transport of step `n` as it is: header, contents, end. -/
structure Open (w : World σ α) (n : Nat) (e : Sent σ) : Prop where
  answer : e.reply = receive w.decoders ((w.env n).transport e.bytes)
  bytes : ∃ (first last : Bytes) (contents : List Bytes), e.bytes = first ++ contents.flatten ++ last ∧
    ((e.plain.content.getD []).filterMap id).map Seg.marshal = contents.map .ok ∧
    b!"HNHBK:1:3" <+: first ∧ b!"HNHBS:" <+: last

/-- The segments of a message that was sent as it is. -/
theorem plain_pieces {segs : List (Option Seg)} {h : MsgHeader} {q : MsgEnd} {v : Version} {m m' : BasicMessage} {b : Bytes}
    (hm : BasicMessage.setPositions ⟨h, q, .none, .none, some segs, v, []⟩ = .ok m) (h2 : m.marshal = .ok (b, m')) :
    ∃ (first last : Bytes) (l4 : List Bytes), m'.header.seg.marshal = .ok first ∧
      ((m.content.getD []).filterMap id).map Seg.marshal = l4.map .ok ∧ m.end_.seg.marshal = .ok last ∧
      b = first ++ l4.flatten ++ last ∧ m'.header = { h with position := 1, size := m'.header.size } ∧
      m.content = some (positionAll 1 segs).1 := by
  unfold BasicMessage.setPositions at hm
  simp only [positionOpt, Outcome.ok.injEq] at hm
  have hc : m.cache = [] := by rw [← hm]
  have hh : m.header = { h with position := 1 } := by rw [← hm]
  have hs : m.sigBegin = .none ∧ m.sigEnd = .none := by rw [← hm]; exact ⟨rfl, rfl⟩
  have hcon : m.content = some (positionAll 1 segs).1 := by rw [← hm]
  obtain ⟨bs, j1, j2, j3, j4⟩ := C19_transmitted hc h2
  have ht : transmitted m' = [m'.header.seg] ++ (m.content.getD []).filterMap id ++ [m.end_.seg] := by
    have : transmitted m' = m'.header.seg :: (transmitted m').tail := rfl
    rw [this, j3]
    simp [transmitted, hs.1, hs.2]
  rw [ht] at j1
  simp only [List.map_append, List.map_cons, List.map_nil] at j1
  obtain ⟨l1, l2, rfl, k1, k2⟩ := List.append_eq_map_iff.1 j1
  obtain ⟨l3, l4, rfl, k3, k4⟩ := List.append_eq_map_iff.1 k1.symm
  rcases l2 with _ | ⟨last, _ | ⟨_, _⟩⟩ <;> simp only [List.map_cons, List.map_nil, List.cons.injEq, reduceCtorEq, and_true, and_false] at k2
  rcases l3 with _ | ⟨first, _ | ⟨_, _⟩⟩ <;> simp only [List.map_cons, List.map_nil, List.cons.injEq, reduceCtorEq, and_true, and_false] at k3
  exact ⟨first, last, l4, k3.symm, k4.symm, k2.symm, by rw [j2]; simp, by rw [j4, hh], hcon⟩

theorem handing_exchangePlain (w : World σ α) (k : Kind) (segs : List (Option Seg)) (v : Version) :
    Handing (fun _ => Open w) (exchangePlain w k segs v) := by
  intro s _
  unfold exchangePlain M.bind
  simp only [newMessage_ok, M.lift]
  cases hm : BasicMessage.setPositions _ with
  | err => simp only; exact .none rfl rfl rfl rfl
  | panic => simp only; exact .none rfl rfl rfl rfl
  | ok m =>
    simp only
    unfold request
    cases h2 : m.marshal with
    | err => simp only; exact .none rfl rfl rfl rfl
    | panic => simp only; exact .none rfl rfl rfl rfl
    | ok r =>
      simp only
      refine .one rfl rfl rfl rfl ⟨rfl, ?_⟩
      simp only
      obtain ⟨b, m'⟩ := r
      obtain ⟨first, last, l4, k3, k4, k2, hb, hh, _⟩ := plain_pieces hm h2
      have e1 : ∀ id : Str, ∀ pos ver : Int, headerBytes ⟨id, pos, ver, .none⟩ = enc (escape id) ++ (58 :: itoa pos ++ 58 :: itoa ver) := by
        intro id pos ver; simp [headerBytes]
      refine ⟨first, last, l4, hb, k4, ?_, ?_⟩
      · refine List.IsPrefix.trans ?_ (seg_starts k3)
        have hpos : m'.header.position = 1 := by rw [hh]
        simp only [MsgHeader.seg, newSegment, newHeader, hpos]
        exact ⟨[], rfl⟩
      · refine List.IsPrefix.trans ?_ (seg_starts k2)
        simp only [MsgEnd.seg, newSegment, newHeader, e1]
        exact ⟨itoa m.end_.position ++ 58 :: itoa 1, rfl⟩

/-! ## Calls -/

theorem handing_end (w : World σ α) : Handing (Delivered w) (end_ w) := fun s hs =>
  Handing.bind (handing_exchange w .end_ [some (dialogEndSeg s.d.dialogId)] s.d.version) (fun m => .lift (checkAcks m)) s hs

theorem handing_anonymousEnd (w : World σ α) : Handing (fun _ => Open w) (anonymousEnd w) := fun s hs =>
  Handing.bind (handing_exchangePlain w .end_ [some (dialogEndSeg s.d.dialogId)] s.d.version) (fun m => .lift (checkAcks m)) s hs

theorem handing_sync (w : World σ α) : Handing (Delivered w) (syncClientSystemId w) := by
  refine (handing_syncRequest w).bind fun m => (Handing.of_outer (takeDialogId_outer m)).bind fun _ =>
    (Handing.lift _).bind fun _ => (Handing.of_outer (updateSecurityFunction_outer w m)).bind fun _ => .bind ?_ fun _ =>
      (Handing.of_core (parseBank_core w m)).bind fun _ => (Handing.of_core (parseUPD_core w m)).bind fun _ =>
        (handing_end w).bind fun _ => ?_
  · unfold takeClientSystemId
    split
    · exact .lift _
    · exact (Handing.lift _).bind fun id => .modify fun d => ⟨rfl, rfl⟩
  · intro s _; exact .refl s

theorem handing_open (w : World σ α) : Handing (Delivered w) (open_ w) := by
  refine (Handing.modify (f := fun d => { d with dialogId := c!"0", messageCount := 0 }) fun d => ⟨rfl, rfl⟩).bind fun _ => ?_
  intro s hs
  exact Handing.bind (handing_exchange w .init (initSegments s.d) s.d.version)
    (fun m => .of_outer (opened_outer w m)) s hs

theorem handing_anonymousInit (w : World σ α) : Handing (fun _ => Open w) (anonymousInit w) := by
  refine (Handing.modify (f := fun d => { d with dialogId := c!"0", messageCount := 0 }) fun d => ⟨rfl, rfl⟩).bind fun _ => ?_
  intro s hs
  exact Handing.bind (handing_exchangePlain w .init (anonymousSegments s.d) s.d.version)
    (fun m => .of_outer (anonymousOpened_outer w m)) s hs

theorem handing_init (w : World σ α) : Handing (Delivered w) (init w) := by
  refine Handing.bind ?_ fun _ => handing_open w
  intro s hs
  unfold ensureClientSystemId
  split
  · exact Handing.bind (handing_sync w) (fun id => .modify (f := fun d => { d with clientSystemId := id }) fun d => ⟨rfl, rfl⟩) s hs
  · exact .refl s

theorem handing_send (w : World σ α) (j : Job) : Handing (Delivered w) (sendMessage w j) :=
  (handing_init w).bind fun _ => .deferred
    ((handing_exchange w .job j.segments j.version).bind fun m => (Handing.lift (checkAcks m)).bind fun _ => .lift (.ok m)) (handing_end w)

theorem handing_syncUser (w : World σ α) : Handing (Delivered w) (syncUserParameterData w) :=
  (handing_init w).bind fun _ => .deferred (.lift _) (handing_end w)

theorem handing_sendAnonymous (w : World σ α) (j : Job) : Handing (fun _ => Open w) (sendAnonymousMessage w j) :=
  (handing_anonymousInit w).bind fun _ => .deferred
    ((handing_exchangePlain w .job j.segments j.version).bind fun m => (Handing.lift (checkAcks m)).bind fun _ => .lift (.ok m))
    (handing_anonymousEnd w)

/-! ## The PIN -/

/-- The PIN set last, `p` if none was. -/
def lastPin (p : Str) : List Call → Str
  | [] => p
  | .setPin q :: cs => lastPin q cs
  | _ :: cs => lastPin p cs

/-- The messages of a call: each handed over once, at its own step and in the order of the steps,
with its own bytes, and what the transport gave back is what was read. -/
def HandedOver (P : Nat → Sent σ → Prop) (s t : St σ α) : Prop :=
  ∃ E ns, t.sent = s.sent ++ E ∧ List.Forall₂ P ns E ∧ ns.Pairwise (· < ·) ∧ ∀ n ∈ ns, s.step < n ∧ n ≤ t.step

/-- Bank, user and PIN determine the signer, and both providers have that PIN. -/
structure Owned (w : World σ α) (bank : BankId) (user pin : Str) (d : Dialog σ α) : Prop where
  hasBank : d.bankId = bank
  hasUser : d.userId = user
  signs : signer d = ⟨pin, w.controlRef (pinTanKeyName bank user c!"S"), pinTanKeyName bank user c!"S"⟩
  wraps : d.crypto.key.pin = pin

theorem Owned.onePin {w : World σ α} {bank : BankId} {user pin : Str} {d : Dialog σ α} (h : Owned w bank user pin d) : OnePin d := by
  have := congrArg Signer.pin h.signs
  exact this.trans h.wraps.symm

theorem Owned.hands {w : World σ α} {bank : BankId} {user pin : Str} {s t : St σ α} (h : Owned w bank user pin s.d)
    (hs : Hands P s t) : Owned w bank user pin t.d := by
  have := hs.same.2.1
  unfold owner at this
  simp only [Prod.mk.injEq] at this
  exact ⟨this.2.1.trans h.hasBank, this.2.2.trans h.hasUser, hs.same.1.trans h.signs, by rw [this.1]; exact h.wraps⟩

theorem owned_run {w : World σ α} {bank : BankId} {user pin : Str} (c : Call) {s : St σ α} (h : Owned w bank user pin s.d) :
    Owned w bank user (lastPin pin [c]) (run w c s).2.d := by
  cases c with
  | send j => exact h.hands (handing_send w j s h.onePin)
  | sendAnonymous j => exact h.hands (handing_sendAnonymous w j s h.onePin)
  | sync => exact h.hands (handing_sync w s h.onePin)
  | syncUser => exact h.hands (handing_syncUser w s h.onePin)
  | setPin p =>
    refine ⟨h.hasBank, h.hasUser, ?_, rfl⟩
    show Signer.mk p (w.controlRef (pinTanKeyName s.d.bankId s.d.userId c!"S")) (pinTanKeyName s.d.bankId s.d.userId c!"S") = _
    rw [h.hasBank, h.hasUser]
    rfl

theorem owned_runAll {w : World σ α} {bank : BankId} {user : Str} (cs : List Call) : ∀ (pin : Str) {s : St σ α},
    Owned w bank user pin s.d → Owned w bank user (lastPin pin cs) (runAll w cs s).d := by
  induction cs with
  | nil => intro pin s h; exact h
  | cons c cs ih =>
    intro pin s h
    have := ih _ (owned_run c h)
    cases c <;> exact this

/-- C96: whatever was done before with a new PIN/TAN dialog, every message of a call is handed to
the transport once, at its own step, and what is read is what the transport gives back for exactly
these bytes.  They are: the message header, the encryption header, a data segment with signature
header, contents and signature end, and the message end.  The signature end carries the PIN set
last; the signature header names bank and user. -/
theorem C96_secured (w : World σ α) (bank : BankId) (user : Str) (v : Version) (name version : Str) (cs : List Call) (c : Call)
    (hc : ∀ j, c ≠ .sendAnonymous j) :
    let s := runAll w cs ⟨newPinTanDialog w bank user v name version, 0, []⟩
    HandedOver (Delivered w ⟨lastPin [] cs, w.controlRef ⟨bank.country, bank.id, user, c!"S", 0, 0⟩,
      ⟨bank.country, bank.id, user, c!"S", 0, 0⟩⟩) s (run w c s).2 := by
  intro s
  have ho : Owned w bank user (lastPin [] cs) s.d := owned_runAll cs [] ⟨rfl, rfl, rfl, rfl⟩
  have hs := ho.signs
  have hp := ho.onePin
  have key : ∀ t, Hands (Delivered w) s t → HandedOver (Delivered w ⟨lastPin [] cs,
      w.controlRef ⟨bank.country, bank.id, user, c!"S", 0, 0⟩, ⟨bank.country, bank.id, user, c!"S", 0, 0⟩⟩) s t := by
    intro t ht
    obtain ⟨E, ns, h1, h2, h3, h4⟩ := ht.log
    rw [hs] at h2
    exact ⟨E, ns, h1, h2, h3, h4⟩
  cases c with
  | send j => exact key _ (handing_send w j s hp)
  | sendAnonymous j => exact absurd rfl (hc j)
  | sync => exact key _ (handing_sync w s hp)
  | syncUser => exact key _ (handing_syncUser w s hp)
  | setPin p => exact ⟨[], [], by simp [run, void, setPin, M.modify], .nil, .nil, by simp⟩

namespace Sample

/-- The first message of a synchronisation with a PIN that contains a separator. -/
def delivered (pin : Str) : Option Bytes :=
  ((runAll (world good) [.setPin pin, .sync] (fresh good)).sent.head?).map (·.bytes)

set_option maxRecDepth 20000 in
theorem delivered_escaped : delivered c!"12:4" = some (b!"HNHBK:1:3+000000000383+300+0+1'HNVSK:998:3+PIN:1+998+1+1::0+1:20200102:030405+2:2:13:@8@" ++
    [0, 0, 0, 0, 0, 0, 0, 0] ++ b!":5:1+280:10000000:user:V:0:0+0'HNVSD:999:1+@226@HNSHK:2:4+PIN:1+999+1234+1+1+1::0+0+1:20200102:030405+1:999:1+6:10:16+280:10000000:user:S:0:0'HKIDN:3:2+280:10000000+user+0+1'HKVVB:4:3+0+0+1+5A624F86A785F4024DD914404+0.3.2'HKTAN:5:6+4+HKIDN'HKSYN:6:3+0'HNSHA:7:2+1234++12?:4''HNHBS:8:1+1'") := by
  decide +kernel

set_option maxRecDepth 20000 in
theorem delivered_damaged : (delivered c!"124:").map (fun b => b.drop (b.length - 35)) =
    some b!"'HNSHA:7:2+1234++124?''HNHBS:8:1+1'" := by decide +kernel

end Sample

example : Sample.delivered c!"12:4" = some (b!"HNHBK:1:3+000000000383+300+0+1'HNVSK:998:3+PIN:1+998+1+1::0+1:20200102:030405+2:2:13:@8@" ++
    [0, 0, 0, 0, 0, 0, 0, 0] ++ b!":5:1+280:10000000:user:V:0:0+0'HNVSD:999:1+@226@HNSHK:2:4+PIN:1+999+1234+1+1+1::0+0+1:20200102:030405+1:999:1+6:10:16+280:10000000:user:S:0:0'HKIDN:3:2+280:10000000+user+0+1'HKVVB:4:3+0+0+1+5A624F86A785F4024DD914404+0.3.2'HKTAN:5:6+4+HKIDN'HKSYN:6:3+0'HNSHA:7:2+1234++12?:4''HNHBS:8:1+1'") :=
  Sample.delivered_escaped

/-- Where the PIN stands. -/
theorem Parts.place (p : Parts) (who : Signer) :
    ∃ a, p.bytes who = a ++ b!"++" ++ pinBytes who.pin ++ b!"''" ++ p.last := by
  refine ⟨p.first ++ p.security ++ (b!"HNVSD:999:1+@" ++ itoa (p.data who).length ++ b!"@" ++ (p.signature ++ p.contents.flatten ++
    (b!"HNSHA:" ++ itoa (p.contents.length + 3) ++ b!":" ++ itoa p.version ++ b!"+" ++ enc (escape who.reference)))), ?_⟩
  unfold Parts.bytes
  generalize itoa (p.data who).length = l
  unfold Parts.data
  simp

/-- C96: the PIN stands in the bytes, escaped, right before the end of the signature end, which is the
last segment inside the data segment. -/
theorem C96_pin {w : World σ α} {who : Signer} {n : Nat} {e : Sent σ} (h : Delivered w who n e)
    (hp : ∀ p c, who.pin = p ++ [c] → c ≠ ':' ∧ c ≠ '+') :
    ∃ a z, e.bytes = a ++ b!"++" ++ enc (escape who.pin) ++ b!"''" ++ z ∧ b!"HNHBS:" <+: z := by
  obtain ⟨p, h1, _, _, _, _, _, h2, _⟩ := h.bytes
  have hb : pinBytes who.pin = enc (escape who.pin) := by
    unfold pinBytes
    rw [if_neg]
    rintro (hl | hl)
    · exact (hp _ _ (List.dropLast_append_getLast? _ hl).symm).1 rfl
    · exact (hp _ _ (List.dropLast_append_getLast? _ hl).symm).2 rfl
  obtain ⟨a, ha⟩ := p.place who
  exact ⟨a, p.last, by rw [h1, ha, hb], h2⟩

/-- C96: a PIN that ends in `:` or `+` is damaged: the separator is cut off, the escape sign before it
remains, and now stands before the end of the segment. -/
theorem C96_pin_damaged {w : World σ α} {who : Signer} {n : Nat} {e : Sent σ} (h : Delivered w who n e) {p : Str} {c : Char}
    (hp : who.pin = p ++ [c]) (hc : c = ':' ∨ c = '+') :
    ∃ a z, e.bytes = a ++ b!"++" ++ enc (escape p) ++ b!"?''" ++ z ∧ b!"HNHBS:" <+: z := by
  obtain ⟨q, h1, _, _, _, _, _, h2, _⟩ := h.bytes
  have hb : pinBytes who.pin = enc (escape p) ++ b!"?" := by
    unfold pinBytes
    rw [hp, if_pos (by simpa using hc), escape_append]
    have : ∃ d, escape [c] = ['?', d] := by rcases hc with rfl | rfl <;> exact ⟨_, rfl⟩
    obtain ⟨d, hd⟩ := this
    have h3 : escape p ++ ['?', d] = (escape p ++ ['?']) ++ [d] := by simp
    rw [hd, h3, List.dropLast_concat, enc_append]
    rfl
  obtain ⟨a, ha⟩ := q.place who
  refine ⟨a, q.last, ?_, h2⟩
  rw [h1, ha, hb]
  simp

example : (Sample.delivered c!"124:").map (fun b => b.drop (b.length - 35)) =
    some b!"'HNSHA:7:2+1234++124?''HNHBS:8:1+1'" := Sample.delivered_damaged

/-! ## Anonymous calls -/

/-- C96: the messages of an anonymous call are handed over in the same way, but they are neither
signed nor wrapped. -/
theorem C96_anonymous (w : World σ α) (bank : BankId) (user : Str) (v : Version) (name version : Str) (cs : List Call) (j : Job) :
    let s := runAll w cs ⟨newPinTanDialog w bank user v name version, 0, []⟩
    HandedOver (Open w) s (run w (.sendAnonymous j) s).2 := by
  intro s
  have ho : Owned w bank user (lastPin [] cs) s.d := owned_runAll cs [] ⟨rfl, rfl, rfl, rfl⟩
  obtain ⟨E, ns, h⟩ := (handing_sendAnonymous w j s ho.onePin).log
  exact ⟨E, ns, h⟩

example : Sample.trace (sendAnonymousMessage (Sample.world Sample.good) Sample.work (Sample.fresh Sample.good)).2 =
    [(.init, 1, c!"0"), (.job, 2, c!"dia1"), (.end_, 3, c!"dia1")] := Sample.trace_anonymous

end Verif.Dialog

import Verif.Message.Keys
import Verif.Dialog.Lemmas
import Verif.Dialog.Delivery
import Verif.Crypto.Lemmas

/-
C104: what can be done with RSA keys.  The claim one would like: keys made or received by the library can
be renewed, sent and revoked, and a dialog can be held with them.
-/

namespace Verif.Keys

open GoLib Element Segment Message Verif.Dialog Element.Spec

/-! ## Renewal and transmission -/

/-- A renewal can be made exactly for keys that are not of type "B" and spell their exponent in decimal; otherwise the
constructor panics. -/
theorem C104_renewal (number : Int) (k : KeyName) (p : PublicKey) :
    ((∃ s, renewalSeg number k p = .ok s) ↔ k.keyType ≠ c!"B" ∧ p.exponent = b!"65537") ∧
      ((∃ s, renewalSeg number k p = .ok s) ∨ renewalSeg number k p = .panic) := by
  unfold renewalSeg publicKeyDE
  by_cases h1 : k.keyType = c!"B" <;> by_cases h2 : p.exponent = b!"65537" <;> simp [h1, h2]

/-- A transmission can be made exactly for positive message references and keys that spell their exponent in decimal. -/
theorem C104_transmission (dialogId : Str) (number ref : Int) (k : KeyName) (p : PublicKey) (q : Seg) :
    ((∃ s, transmissionSeg dialogId number ref k p q = .ok s) ↔ 0 < ref ∧ p.exponent = b!"65537") ∧
      ((∃ s, transmissionSeg dialogId number ref k p q = .ok s) ∨ transmissionSeg dialogId number ref k p q = .panic) := by
  unfold transmissionSeg publicKeyDE
  by_cases h1 : ref ≤ 0 <;> by_cases h2 : p.exponent = b!"65537" <;> simp [h1, h2]
  omega

/-- A key whose exponent is the big-endian representation of a number, as `big.Int` gives it, is acceptable for one number
only, and that is not 65537. -/
theorem C104_exponent (p : PublicKey) (e : Nat) (h : p.exponent = Crypto.numBytes e) (number : Int) (k : KeyName) (hk : k.keyType ≠ c!"B") :
    (∃ s, renewalSeg number k p = .ok s) ↔ e = 0x3635353337 := by
  rw [(C104_renewal number k p).1, h]
  constructor
  · rintro ⟨_, h⟩
    have := congrArg Crypto.setBytes h
    rw [Crypto.setBytes_numBytes] at this
    rw [this]; decide
  · rintro rfl
    exact ⟨hk, by decide +kernel⟩

/-- No key of the library can be renewed or transmitted: neither one it generated, whatever the random source gave, nor one
it made of the bytes the bank sent, whatever they are. -/
theorem C104_keys {p : PublicKey} (hp : (∃ drawn, generateSigningKey drawn = .ok p) ∨ ∃ m e, p = newEncryptionKey m e) (number ref : Int)
    (k : KeyName) (dialogId : Str) (q : Seg) :
    renewalSeg number k p = .panic ∧ transmissionSeg dialogId number ref k p q = .panic := by
  have h : p.exponent ≠ b!"65537" := by
    rcases hp with ⟨drawn, hd⟩ | ⟨m, e, rfl⟩
    · unfold generateSigningKey at hd
      cases drawn with
      | ok n =>
        simp at hd
        subst hd
        show Crypto.numBytes 65537 ≠ b!"65537"
        decide +kernel
      | err => simp at hd
      | panic => simp at hd
    · simp [newEncryptionKey, goCopy]
  constructor
  · rcases (C104_renewal number k p).2 with h1 | h1
    · exact absurd ((C104_renewal number k p).1.1 h1).2 h
    · exact h1
  · rcases (C104_transmission dialogId number ref k p q).2 with h1 | h1
    · exact absurd ((C104_transmission dialogId number ref k p q).1.1 h1).2 h
    · exact h1

/-- The RSA key behind a key the bank sent has the right numbers as long as the exponent fits into 63 bits, though the bytes
beside it are lost. -/
theorem C104_received (m e : Bytes) :
    (newEncryptionKey m e).modulus = [] ∧ (newEncryptionKey m e).exponent = [] ∧
      ∃ x, (newEncryptionKey m e).publicKey = some (Crypto.setBytes m, x) ∧
        (x = (Crypto.setBytes e : Int) ↔ Crypto.setBytes e < 2 ^ 63) := by
  refine ⟨by simp [newEncryptionKey, goCopy], by simp [newEncryptionKey, goCopy], _, rfl, ?_⟩
  unfold int64
  omega

/-! ## Revocation -/

theorem search_le (f : Nat → Bool) (i j : Nat) (h : i ≤ j) : search f i j ≤ j := by
  induction i, j using search.induct f with
  | case1 i j hl hf ih => rw [search, if_pos hl, if_pos hf]; have := ih (by omega); omega
  | case2 i j hl hf ih => rw [search, if_pos hl, if_neg hf]; exact ih (by omega)
  | case3 i j hl => rw [search, if_neg hl]; exact h

theorem searchStrings_le (a : List Str) (x : Str) : searchStrings a x ≤ a.length := search_le _ _ _ (Nat.zero_le _)

/-- Every text is taken for a reason: the check never rejects one. -/
theorem C104_reason (number : Int) (k : KeyName) (reason : Str) (now : Time.Civil) :
    ∃ s, revocationSeg number k reason now = .ok s ∧ s.elements[3]? = some (some (.alnum reason 3)) := by
  unfold revocationSeg
  rw [if_neg (by have := searchStrings_le validRevocationReasons reason; omega)]
  exact ⟨_, rfl, rfl⟩

/-- A confirmation can be made exactly for positive message references, whatever the reason. -/
theorem C104_confirmation (dialogId : Str) (number ref : Int) (k : KeyName) (reason : Str) (q : Seg) (now : Time.Civil) :
    (0 < ref → ∃ s, confirmationSeg dialogId number ref k reason q now = .ok s ∧ s.header.ref = some q.header.position ∧
      s.elements[5]? = some (some (.alnum reason 3))) ∧
      (ref ≤ 0 → confirmationSeg dialogId number ref k reason q now = .panic) := by
  unfold confirmationSeg
  have := searchStrings_le validRevocationReasons reason
  constructor
  · intro h
    rw [if_neg (by omega), if_neg (by omega)]
    exact ⟨_, rfl, rfl, rfl⟩
  · intro h
    rw [if_pos h]

/-! ## On the wire -/

theorem digits_last {d : Bytes} (h : Token.Spec.DigitString d) (x : Bytes) (c : UInt8) (hc : c < 48) :
    (x ++ d).getLast? ≠ some c := by
  rw [List.getLast?_append_of_ne_nil _ h.1]
  intro hl
  have := h.2 c (List.mem_of_getLast? hl)
  revert hc
  have h1 : 48 ≤ c := this.1
  intro hc
  exact absurd hc (by simpa using h1)

/-- The bytes of a renewal: the key's name, modulus and exponent stand in it as they were given. -/
theorem C104_renewal_bytes {number : Int} {k : KeyName} {p : PublicKey} {s : Seg} (h : renewalSeg number k p = .ok s) (hu : Latin1 p.usage)
    {kn : Bytes} (hk : (keyNameDE k).marshal = .ok kn) :
    s.marshal = .ok (b!"HKSAK:" ++ itoa number ++ b!":2+2+112+" ++ kn ++ b!"+" ++ enc (escape p.usage) ++ b!":16:10:@" ++
      natDec p.modulus.length ++ b!"@" ++ p.modulus ++ b!":12:@5@65537:13'") := by
  obtain ⟨h1, h2⟩ := (C104_renewal number k p).1.1 ⟨s, h⟩
  unfold renewalSeg publicKeyDE at h
  rw [if_neg h1, if_neg (by simpa using h2)] at h
  simp only [Outcome.map', Outcome.ok.injEq] at h
  subst h
  have e1 : marshalText c!"16" = .ok b!"16" := by decide +kernel
  have e2 : marshalText c!"10" = .ok b!"10" := by decide +kernel
  have e3 : marshalText c!"12" = .ok b!"12" := by decide +kernel
  have e4 : marshalText c!"13" = .ok b!"13" := by decide +kernel
  have e5 : itoa 2 = b!"2" := by decide +kernel
  have e6 : itoa 112 = b!"112" := by decide +kernel
  have e7 : enc (escape c!"HKSAK") = b!"HKSAK" := by decide +kernel
  have e8 : natDec 5 = b!"5" := by decide +kernel
  have t1 : ∀ x : Bytes, trimRight 58 (x ++ b!"13") = x ++ b!"13" := fun x => trimRight_of_last (by simp)
  have t2 : ∀ x : Bytes, trimRight 43 (x ++ b!"13" ++ b!"+") = x ++ b!"13" := fun x => by
    rw [trimRight_append_single, trimRight_of_last (by simp)]
  unfold Seg.marshal
  simp only [newSegment]
  rw [headerBytes_plain _ (latin1_of_all (by decide))]
  simp only [Outcome.bind, Outcome.map', DE.marshalAll, DE.marshalOpt, DE.marshal, hk, marshalText_ok hu, e1, e2, e3, e4, e5, e6, e7,
    marshalNumber, marshalBinary, h2, join, Outcome.ok.injEq, List.length_cons, List.length_nil, Nat.zero_add, Nat.reduceAdd, e8]
  have := t1 (enc (escape p.usage) ++ b!":16:10:@" ++ natDec p.modulus.length ++ b!"@" ++ p.modulus ++ b!":12:@5@65537:")
  simp only [List.append_assoc, List.cons_append, List.nil_append] at this ⊢
  rw [this]
  have := t2 (b!"HKSAK:" ++ itoa number ++ b!":2+2+112+" ++ kn ++ b!"+" ++ enc (escape p.usage) ++ b!":16:10:@" ++
      natDec p.modulus.length ++ b!"@" ++ p.modulus ++ b!":12:@5@65537:")
  simp only [List.append_assoc, List.cons_append, List.nil_append] at this ⊢
  rw [this]
  simp

/-- The bytes of a request for the bank's key. -/
theorem C104_request_bytes (number : Int) (k : KeyName) {kn : Bytes} (hk : (keyNameDE k).marshal = .ok kn) :
    (requestSeg number k).marshal = .ok (b!"HKISA:" ++ itoa number ++ b!":2+2+124+" ++ kn ++ b!"'") := by
  have e5 : itoa 2 = b!"2" := by decide +kernel
  have e6 : itoa 124 = b!"124" := by decide +kernel
  have e7 : enc (escape c!"HKISA") = b!"HKISA" := by decide +kernel
  obtain ⟨hn, hl⟩ := keyName_last hk
  have t2 : ∀ x : Bytes, trimRight 43 (x ++ kn ++ b!"+") = x ++ kn := fun x => by
    rw [trimRight_append_single, trimRight_of_last (by rw [List.getLast?_append_of_ne_nil _ hn]; exact hl)]
  unfold Seg.marshal requestSeg
  simp only [newSegment]
  rw [headerBytes_plain _ (latin1_of_all (by decide))]
  simp only [Outcome.bind, Outcome.map', DE.marshalAll, DE.marshalOpt, DE.marshal, hk, e5, e6, e7, marshalNumber, join,
    Outcome.ok.injEq]
  have := t2 (b!"HKISA:" ++ itoa number ++ b!":2+2+124+")
  simp only [List.append_assoc, List.cons_append, List.nil_append] at this ⊢
  rw [this]
  simp

/-- The bytes of a revocation: any Latin-1 text stands in it as the reason, escaped and not cut. -/
theorem C104_reason_bytes (number : Int) (k : KeyName) {reason : Str} (hr : Latin1 reason) (now : Time.Civil) {kn : Bytes}
    (hk : (keyNameDE k).marshal = .ok kn) :
    ∃ s, revocationSeg number k reason now = .ok s ∧
      s.marshal = .ok (b!"HKSSP:" ++ itoa number ++ b!":2+2+130+" ++ kn ++ b!"+" ++ enc (escape reason) ++ b!"+1:" ++
        Time.format8 now ++ b!":" ++ Time.format6 now ++ b!"'") := by
  obtain ⟨s, hs, -⟩ := C104_reason number k reason now
  refine ⟨s, hs, ?_⟩
  unfold revocationSeg at hs
  rw [if_neg (by have := searchStrings_le validRevocationReasons reason; omega), Outcome.ok.injEq] at hs
  subst hs
  have e1 : marshalText c!"1" = .ok b!"1" := by decide +kernel
  have e5 : itoa 2 = b!"2" := by decide +kernel
  have e6 : itoa 130 = b!"130" := by decide +kernel
  have e7 : enc (escape c!"HKSSP") = b!"HKSSP" := by decide +kernel
  have hd : Token.Spec.DigitString (Time.format6 now) :=
    digits_append (digits_append (pad_digits _ _) (pad_digits _ _)) (pad_digits _ _)
  have t1 : ∀ x : Bytes, trimRight 58 (x ++ Time.format6 now) = x ++ Time.format6 now := fun x => by
    apply trimRight_of_last
    rw [List.getLast?_append_of_ne_nil _ hd.1]
    intro hl
    have := hd.2 58 (List.mem_of_getLast? hl)
    unfold Token.Spec.Digit at this
    revert this; decide
  have t2 : ∀ x : Bytes, trimRight 43 (x ++ Time.format6 now ++ b!"+") = x ++ Time.format6 now := fun x => by
    rw [trimRight_append_single, trimRight_of_last (digits_last hd _ _ (by decide))]
  unfold Seg.marshal
  simp only [newSegment]
  rw [headerBytes_plain _ (latin1_of_all (by decide))]
  simp only [Outcome.bind, Outcome.map', DE.marshalAll, DE.marshalOpt, DE.marshal, hk, marshalText_ok hr, e1, e5, e6, e7,
    marshalNumber, marshalDate, marshalTime, securityDate, join, Outcome.ok.injEq]
  have := t1 (b!"1:" ++ Time.format8 now ++ b!":")
  simp only [List.append_assoc, List.cons_append, List.nil_append] at this ⊢
  rw [this]
  have := t2 (b!"HKSSP:" ++ itoa number ++ b!":2+2+130+" ++ kn ++ b!"+" ++ enc (escape reason) ++ b!"+1:" ++
        Time.format8 now ++ b!":")
  simp only [List.append_assoc, List.cons_append, List.nil_append] at this ⊢
  rw [this]
  simp

/-! ## Concrete cases -/

/-- The name of a customer's signing key. -/
def sampleName : KeyName := ⟨280, c!"10020030", c!"12345", c!"S", 1, 1⟩

/-- A key that spells its exponent in decimal. -/
def sampleKey : PublicKey := ⟨c!"6", [200, 1, 43], b!"65537", none, none⟩

example : ∃ kn, (keyNameDE sampleName).marshal = .ok kn ∧ kn = b!"280:10020030:12345:S:1:1" := ⟨_, by decide +kernel, rfl⟩

-- `C104_renewal`, `C104_renewal_bytes`, `C104_transmission`: both sides of the equivalences occur.
example : sampleName.keyType ≠ c!"B" ∧ sampleKey.exponent = b!"65537" ∧ Latin1 sampleKey.usage :=
  ⟨by decide, rfl, latin1_of_all (by decide)⟩

example : (renewalSeg 3 sampleName sampleKey).bind Seg.marshal =
    .ok (b!"HKSAK:3:2+2+112+280:10020030:12345:S:1:1+6:16:10:@3@" ++ [200, 1, 43] ++ b!":12:@5@65537:13'") := by
  decide +kernel

example : renewalSeg 3 { sampleName with keyType := c!"B" } sampleKey = .panic := rfl

-- `C104_exponent`: the number 65537 is written with other bytes.
example : Crypto.numBytes 65537 = [1, 0, 1] := by decide +kernel

-- `C104_keys`: a generated key, and one made of what a bank sent.
example : ∃ p, generateSigningKey (.ok 3233) = .ok p ∧ p.exponent = [1, 0, 1] := ⟨_, rfl, by decide +kernel⟩

example : (newEncryptionKey [12, 161] [1, 0, 1]).publicKey = some (3233, 65537) := by decide +kernel

-- `C104_reason`: no reason that a bank knows.
example : (revocationSeg 3 sampleName c!"because+" ⟨2023, 5, 17, 8, 30, 0, 0⟩).bind Seg.marshal =
    .ok b!"HKSSP:3:2+2+130+280:10020030:12345:S:1:1+because?++1:20230517:083000'" := by
  decide +kernel

example : (requestSeg 4 sampleName).marshal = .ok b!"HKISA:4:2+2+124+280:10020030:12345:S:1:1'" := by decide +kernel

example : (confirmationSeg c!"D1" 5 0 sampleName c!"1" (requestSeg 4 sampleName) ⟨2023, 5, 17, 8, 30, 0, 0⟩) = .panic := rfl

end Verif.Keys

namespace Verif.Rdh

open GoLib Element Segment Message Dialog

/-! ## The RDH dialog -/

/-- A dialog without crypto provider and without transport. -/
structure Bare (s : St) : Prop where
  crypto : s.d.crypto = none
  transport : s.d.transport = none

theorem encrypt_none (m : BasicMessage) (now : Time.Civil) (e : BasicMessage) : encrypt m none now ≠ .ok e := by
  unfold encrypt
  rcases m.content with _ | segs
  · simp
  · simp only
    rcases marshalSegOpt m.sigBegin with a | _ | _ <;> rcases marshalSegs segs with b | _ | _ <;>
      rcases marshalSegOpt m.sigEnd with c | _ | _ <;> simp

/-- What a call leaves behind: it did not succeed, nothing was sent, and the dialog is as bare as before. -/
structure Useless (s : St) (r : Outcome Unit × St) : Prop where
  failed : r.1 ≠ .ok ()
  sent : r.2.sent = s.sent
  bare : Bare r.2

theorem requestEncrypted_useless (now : Time.Civil) (m : BasicMessage) {s : St} (h : Bare s) : Useless s (requestEncrypted now m s) := by
  unfold requestEncrypted
  rw [h.crypto]
  cases hx : encrypt m none now with
  | ok e => exact absurd hx (encrypt_none m now e)
  | err => exact ⟨by simp, rfl, h⟩
  | panic => exact ⟨by simp, rfl, h⟩

theorem request_useless (m : BasicMessage) {s : St} (h : Bare s) : Useless s (request m s) := by
  unfold request
  cases m.marshal with
  | ok b => simp only [h.transport]; exact ⟨by simp, rfl, h⟩
  | err => exact ⟨by simp, rfl, h⟩
  | panic => exact ⟨by simp, rfl, h⟩

theorem newMessage_bare (segs : List (Option Seg)) (v : Version) {s : St} (h : Bare s) :
    Bare (newMessage segs v s).2 ∧ (newMessage segs v s).2.sent = s.sent := ⟨⟨h.crypto, h.transport⟩, rfl⟩

theorem sync_useless (sign : Signer) (now : Time.Civil) {s : St} (h : Bare s) : Useless s (sync sign now s) := by
  unfold sync
  simp only
  obtain ⟨h1, h2⟩ := newMessage_bare [some (identificationSeg s.d.bankId s.d.clientId c!"0" true),
    some (preparationSeg 0 0 1 s.d.productName s.d.productVersion), some (tanRequestV6 c!"HKIDN"), none, none, none,
    some (synchronisationSeg s.d.version)] s.d.version h
  split
  · rw [h1.crypto]
    exact ⟨by simp, h2, h1⟩
  · exact ⟨by simp, h2, h1⟩
  · exact ⟨by simp, h2, h1⟩

theorem open_useless (sign : Signer) (now : Time.Civil) {s : St} (h : Bare s) : Useless s (open_ sign now s) := by
  unfold open_
  simp only
  split
  · have hb : Bare { s with d := { s.d with dialogId := c!"0", messageCount := 0 } } := ⟨h.crypto, h.transport⟩
    have := requestEncrypted_useless now (by assumption) (newMessage_bare [some (identificationSeg s.d.bankId s.d.clientId s.d.clientSystemId true),
      some (preparationSeg 0 0 1 s.d.productName s.d.productVersion), some (tanRequestV6 c!"HKIDN"), none, none, none] s.d.version hb).1
    exact ⟨this.failed, this.sent, this.bare⟩
  · exact ⟨by simp, rfl, ⟨h.crypto, h.transport⟩⟩
  · exact ⟨by simp, rfl, ⟨h.crypto, h.transport⟩⟩

theorem run_useless (sign : Signer) (now : Time.Civil) (c : Call) {s : St} (h : Bare s) : Useless s (run sign now c s) := by
  have hi : Useless s (init sign now s) := by
    unfold init
    split
    · have := sync_useless sign now h
      rcases hx : sync sign now s with ⟨r, t⟩
      rw [hx] at this
      cases r with
      | ok u => exact absurd rfl this.failed
      | err => exact this
      | panic => exact this
    · exact open_useless sign now h
  cases c with
  | sync => exact sync_useless sign now h
  | send => exact hi
  | syncUser => exact hi
  | sendAnonymous =>
    unfold run anonymousInit
    simp only
    split
    · have hb : Bare { s with d := { s.d with dialogId := c!"0", messageCount := 0 } } := ⟨h.crypto, h.transport⟩
      have := request_useless (by assumption) (newMessage_bare [some (identificationSeg s.d.bankId c!"9999999999" c!"0" false),
        some (preparationSeg 0 0 1 s.d.productName s.d.productVersion), none, none, none, none] s.d.version hb).1
      exact ⟨this.failed, this.sent, this.bare⟩
    · exact ⟨by simp, rfl, ⟨h.crypto, h.transport⟩⟩
    · exact ⟨by simp, rfl, ⟨h.crypto, h.transport⟩⟩
  | setClientSystemId i =>
    unfold run
    simp only [h.crypto]
    exact ⟨by simp, rfl, ⟨rfl, h.transport⟩⟩
  | setSecurityFunction f =>
    unfold run
    simp only [h.crypto]
    exact ⟨by simp, rfl, ⟨rfl, h.transport⟩⟩

theorem runAll_useless (sign : Signer) (now : Nat → Time.Civil) (cs : List Call) {s : St} (h : Bare s) :
    (∀ r ∈ (runAll sign now cs s).1, r ≠ .ok ()) ∧ (runAll sign now cs s).2.sent = s.sent := by
  induction cs generalizing s with
  | nil => exact ⟨by simp [runAll], rfl⟩
  | cons c cs ih =>
    have h1 := run_useless sign (now s.step) c h
    obtain ⟨h2, h3⟩ := ih h1.bare
    refine ⟨?_, h3.trans h1.sent⟩
    intro r hr
    simp only [runAll, List.mem_cons] at hr
    rcases hr with rfl | hr
    · exact h1.failed
    · exact h2 r hr

/-- No call on an RDH dialog ever succeeds and nothing is ever sent, whatever is called in whatever order, whatever the
signatures come to, and even if the caller recovers from every panic. -/
theorem C104_dialog {drawn : Outcome Nat} {bank : BankId} {userId : Str} {version : Version} {name number : Str} {d : RdhDialog}
    (h : newRdhDialog drawn bank userId version name number = .ok d) (sign : Signer) (now : Nat → Time.Civil) (cs : List Call) :
    (runAll sign now cs ⟨d, 0, []⟩).1.length = cs.length ∧ (∀ r ∈ (runAll sign now cs ⟨d, 0, []⟩).1, r ≠ .ok ()) ∧
      (runAll sign now cs ⟨d, 0, []⟩).2.sent = [] := by
  have hb : Bare ⟨d, 0, []⟩ := by
    unfold newRdhDialog at h
    cases hx : Keys.generateSigningKey drawn <;> rw [hx] at h <;> simp at h
    subst h
    exact ⟨rfl, rfl⟩
  obtain ⟨h1, h2⟩ := runAll_useless sign now cs hb
  refine ⟨?_, h1, h2⟩
  clear h1 h2 hb h
  generalize (⟨d, 0, []⟩ : St) = s
  induction cs generalizing s with
  | nil => rfl
  | cons c cs ih => simp [runAll, ih]

/-- A first call that has to sign panics as soon as the signature succeeds. -/
theorem C104_first {drawn : Outcome Nat} {bank : BankId} {userId : Str} {version : Version} {name number : Str} {d : RdhDialog}
    (h : newRdhDialog drawn bank userId version name number = .ok d) {sign : Signer} (hs : ∀ n m, ∃ m', sign n m = .ok m') (now : Time.Civil)
    {c : Call} (hc : c = .sync ∨ c = .send ∨ c = .syncUser) : (run sign now c ⟨d, 0, []⟩).1 = .panic := by
  unfold newRdhDialog at h
  cases hx : Keys.generateSigningKey drawn <;> rw [hx] at h <;> simp at h
  subst h
  have hsync : ∀ s : St, s.d.crypto = none → ∃ t, sync sign now s = (.panic, t) := by
    intro s hc
    unfold sync
    simp only
    generalize hm : newMessage _ _ s = p
    have hp : p.2.d.crypto = none := by rw [← hm]; exact hc
    obtain ⟨m', hm'⟩ := hs p.2.step p.1
    rw [hm', hp]
    exact ⟨_, rfl⟩
  obtain ⟨t, ht⟩ := hsync ⟨⟨bank, userId, c!"0", [], 0, c!"0", version, name, number, none, none⟩, 0, []⟩ rfl
  rcases hc with rfl | rfl | rfl
  · unfold run; simp only; rw [ht]
  · unfold run init; simp only; rw [if_pos trivial, ht]
  · unfold run init; simp only; rw [if_pos trivial, ht]

/-! ## Concrete cases -/

/-- A dialog as the library makes it. -/
def sampleDialog : RdhDialog := ⟨⟨280, c!"10020030"⟩, c!"12345", c!"0", [], 0, c!"0", .fints300, c!"", c!"", none, none⟩

example : newRdhDialog (.ok 3233) ⟨280, c!"10020030"⟩ c!"12345" .fints300 c!"" c!"" = .ok sampleDialog := rfl

-- Signing succeeds, and the caller gives an ID by hand after the first panic: the second attempt gets further, to the
-- encryption, and panics there.
example : (runAll (fun _ m => .ok m) (fun _ => ⟨2023, 5, 17, 8, 30, 0, 0⟩) [.send, .setClientSystemId c!"A1", .send, .sendAnonymous]
    ⟨sampleDialog, 0, []⟩).1 = [.panic, .panic, .panic, .panic] := by
  decide +kernel

example : (run (fun _ _ => .err) ⟨2023, 5, 17, 8, 30, 0, 0⟩ .send ⟨sampleDialog, 0, []⟩).1 = .err := by decide +kernel

end Verif.Rdh

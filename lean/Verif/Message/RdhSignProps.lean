import Verif.Message.RdhSign
import Verif.Message.TextProps
import Verif.Crypto.RsaProps

/-
C114: what RSA keys sign and encrypt, and what an RDH signature is worth.
-/

namespace Verif.Keys

open GoLib Element Segment Message Crypto

/-! ## Specification -/

/-- The signature `s` is one of `h` (PKCS #1 version 1.5 without the name of a hash function) for the
public key of modulus `n` and exponent `e`: raised to `e` it is the block of `h`, in as many bytes as
`n` has. -/
def Verifies (n e : Nat) (h s : Bytes) : Prop :=
  ∃ ones : Bytes, 8 ≤ ones.length ∧ (∀ x ∈ ones, x = 255) ∧ (0 :: 1 :: (ones ++ 0 :: h)).length = size n ∧
    s.length = size n ∧ value s ^ e % n = value (0 :: 1 :: (ones ++ 0 :: h))

/-- Whoever has the private exponent `d` for the modulus `n` finds the text `m` in `c`. -/
def Opens (n d : Nat) (m c : Bytes) : Prop :=
  ∃ ps : Bytes, 8 ≤ ps.length ∧ (∀ x ∈ ps, x ≠ 0) ∧ (0 :: 2 :: (ps ++ 0 :: m)).length = size n ∧
    c.length = size n ∧ value c ^ d % n = value (0 :: 2 :: (ps ++ 0 :: m))

/-! ## Lemmas -/

theorem split_zero : ∀ {a b : Bytes} {x y : Bytes}, (∀ c ∈ a, c ≠ 0) → (∀ c ∈ b, c ≠ 0) → a ++ 0 :: x = b ++ 0 :: y → x = y
  | [], [], _, _, _, _, h => by simpa using h
  | [], c :: b, _, _, _, h2, h => by
    simp only [List.nil_append, List.cons_append, List.cons.injEq] at h
    exact absurd h.1.symm (h2 c (by simp))
  | c :: a, [], _, _, h1, _, h => by
    simp only [List.nil_append, List.cons_append, List.cons.injEq] at h
    exact absurd h.1 (h1 c (by simp))
  | c :: a, d :: b, _, _, h1, h2, h => by
    simp only [List.cons_append, List.cons.injEq] at h
    exact split_zero (fun x hx => h1 x (by simp [hx])) (fun x hx => h2 x (by simp [hx])) h.2

theorem fill_length {n c : Nat} (h : c < n) : (fillBytes (modulusSize n) c).length = size n := by
  have := numBytes_length_bitLen h
  unfold fillBytes modulusSize size
  unfold bitLen at *
  simp only [List.length_append, List.length_replicate]
  omega

theorem fill_value (k c : Nat) : value (fillBytes k c) = c := by
  rw [← value_eq, fillBytes, setBytes_zeros, setBytes_numBytes]

/-- A block that begins with a zero is below the modulus. -/
theorem block_lt {n : Nat} {b : Bytes} (hl : (0 :: b).length = size n) (hb : 0 < b.length) : value (0 :: b) < n := by
  rw [← value_eq, setBytes_cons]
  have h1 := setBytes_lt b
  have h0 : n ≠ 0 := by
    rintro rfl
    simp [size] at hl
  have h2 := le_of_bitLen h0
  have h3 : (256 : Nat) ^ b.length = 2 ^ (8 * b.length) := by rw [pow_mul]; norm_num
  have h4 : 2 ^ (8 * b.length) ≤ 2 ^ (bitLen n - 1) := by
    apply Nat.pow_le_pow_right (by norm_num)
    unfold size at hl
    unfold bitLen
    simp only [List.length_cons] at hl
    omega
  simp only [UInt8.toNat_zero, Nat.zero_mul, Nat.zero_add]
  omega

/-! ## Signing -/

theorem verifies_unique {n e : Nat} {h h' s : Bytes} (v : Verifies n e h s) (v' : Verifies n e h' s) : h = h' := by
  obtain ⟨o, _, h2, h3, _, h5⟩ := v
  obtain ⟨o', _, k2, k3, _, k5⟩ := v'
  rw [h5, ← value_eq, ← value_eq] at k5
  have := setBytes_inj k5 (by rw [h3, k3])
  simp only [List.cons.injEq, true_and] at this
  refine split_zero (fun c hc => ?_) (fun c hc => ?_) this
  · rw [h2 c hc]; decide
  · rw [k2 c hc]; decide

/-- C114: with a generated key every text that leaves room for the padding is signed, others are an
error.  The signature can be verified with the modulus and the exponent that the key shows, for the
text that was signed and for no other. -/
theorem C114_signature {n d : Nat} {k : PublicKey} (hk : generateSigningKey (.ok n) = .ok k) (hp : KeyPair n 65537 d) (h : Bytes) :
    (h.length + 11 ≤ size n → ∃ s, k.sign d h = .ok s ∧ Verifies (value k.modulus) (value k.exponent) h s ∧
      ∀ h', Verifies (value k.modulus) (value k.exponent) h' s → h' = h) ∧
    (size n < h.length + 11 → k.sign d h = .err) := by
  cases hk
  have hm : value (numBytes n) = n := by rw [← value_eq, setBytes_numBytes]
  have he : value (numBytes 65537) = 65537 := by rw [← value_eq, setBytes_numBytes]
  simp only [PublicKey.sign, signPKCS1v15, Option.map_some, hm, he]
  have hs : modulusSize n = size n := rfl
  rw [hs]
  refine ⟨fun hl => ?_, fun hl => by rw [if_pos hl]⟩
  rw [if_neg (by omega)]
  set em : Bytes := 0 :: 1 :: (List.replicate (size n - h.length - 3) 255 ++ 0 :: h) with hem
  have hlen : em.length = size n := by
    simp only [hem, List.length_cons, List.length_append, List.length_replicate]
    omega
  have hlt : value em < n := block_lt hlen (by simp)
  have hinv : (setBytes em ^ d % n) ^ 65537 % n = setBytes em := by
    rw [← Nat.pow_mod, ← pow_mul, mul_comm, pow_of_keyPair hp, Nat.mod_eq_of_lt]
    rwa [value_eq]
  rw [if_pos hinv]
  have v : Verifies n 65537 h (fillBytes (size n) (setBytes em ^ d % n)) := by
    refine ⟨List.replicate (size n - h.length - 3) 255, by simp; omega, fun x hx => List.eq_of_mem_replicate hx, hlen,
      fill_length (Nat.mod_lt _ (by omega)), ?_⟩
    rw [fill_value, hinv, value_eq]
  exact ⟨_, rfl, v, fun h' v' => verifies_unique v' v⟩

/-! ## An example -/

/-- A small key: a product of primes. -/
def samplePrimes : List Nat := [1009, 2521, 631, 421, 337, 281, 241, 211, 181, 127, 113, 73, 71]

theorem keyPair_of_primes {e d : Nat} (he : 0 < e) (hd : 0 < d) :
    ∀ {l : List Nat}, l.Nodup → (∀ p ∈ l, p.Prime ∧ e * d ≡ 1 [MOD p - 1]) → KeyPair l.prod e d := by
  intro l hn hl
  have hdvd : ∀ p, p.Prime → p ∣ l.prod → p ∈ l := by
    intro p hp h
    obtain ⟨q, hq, hpq⟩ := (Nat.prime_iff.1 hp).dvd_prod_iff.1 h
    rwa [(Nat.prime_dvd_prime_iff_eq hp (hl q hq).1).1 hpq]
  refine ⟨?_, he, hd, fun p hp h => (hl p (hdvd p hp h)).2⟩
  induction l with
  | nil => simp
  | cons q r ih =>
    obtain ⟨h1, h2⟩ := List.nodup_cons.1 hn
    have h3 : ∀ p ∈ r, p.Prime ∧ e * d ≡ 1 [MOD p - 1] := fun p hp => hl p (by simp [hp])
    have h4 : ∀ p, p.Prime → p ∣ r.prod → p ∈ r := by
      intro p hp h
      obtain ⟨q, hq, hpq⟩ := (Nat.prime_iff.1 hp).dvd_prod_iff.1 h
      rwa [(Nat.prime_dvd_prime_iff_eq hp (h3 q hq).1).1 hpq]
    have hq := (hl q (by simp)).1
    rw [List.prod_cons, Nat.squarefree_mul ((Nat.Prime.coprime_iff_not_dvd hq).2 fun h => h1 (h4 q hq h))]
    exact ⟨hq.squarefree, ih h2 h3 h4⟩

theorem samplePair : KeyPair samplePrimes.prod 65537 593 := by
  refine keyPair_of_primes (by norm_num) (by norm_num) (by decide) ?_
  intro p hp
  simp only [samplePrimes, List.mem_cons, List.not_mem_nil, or_false] at hp
  rcases hp with rfl | rfl | rfl | rfl | rfl | rfl | rfl | rfl | rfl | rfl | rfl | rfl | rfl <;> exact ⟨by norm_num, by decide⟩

example : ((generateSigningKey (.ok samplePrimes.prod)).bind fun k => k.sign 593 b!"hi").map' List.length = .ok 14 ∧
    ((generateSigningKey (.ok samplePrimes.prod)).bind fun k => k.sign 593 b!"hash") = .err := by decide +kernel

/-! ## Encrypting -/

theorem opens_unique {n d : Nat} {m m' c : Bytes} (v : Opens n d m c) (v' : Opens n d m' c) : m = m' := by
  obtain ⟨o, _, h2, h3, _, h5⟩ := v
  obtain ⟨o', _, k2, k3, _, k5⟩ := v'
  rw [h5, ← value_eq, ← value_eq] at k5
  have := setBytes_inj k5 (by rw [h3, k3])
  simp only [List.cons.injEq, true_and] at this
  exact split_zero h2 k2 this

theorem int64_small {n : Nat} (h : n < 2 ^ 63) : int64 n = n := by
  unfold int64
  omega

/-- C114: a text encrypted with a bank's key is found by whoever has the private exponent, and no other
text is.  That holds whatever the padding is, as long as it has the length that was asked for and no
zeros.  Every text that leaves room for it is encrypted, others are an error. -/
theorem C114_encryption {modulus exponent : Bytes} {d : Nat} (hp : KeyPair (value modulus) (value exponent) d)
    (he : 2 ≤ value exponent ∧ value exponent < 2 ^ 31) (pad : Nat → Outcome Bytes) (m : Bytes) :
    (∀ ps, m.length + 11 ≤ size (value modulus) → pad (size (value modulus) - m.length - 3) = .ok ps →
      ps.length = size (value modulus) - m.length - 3 → (∀ x ∈ ps, x ≠ 0) →
      ∃ c, (newEncryptionKey modulus exponent).encrypt pad m = .ok c ∧ Opens (value modulus) d m c ∧
        ∀ m', Opens (value modulus) d m' c → m' = m) ∧
    (size (value modulus) < m.length + 11 → (newEncryptionKey modulus exponent).encrypt pad m = .err) := by
  simp only [PublicKey.encrypt, encryptPKCS1v15, newEncryptionKey, value_eq]
  rw [int64_small (by omega)]
  have hs : modulusSize (value modulus) = size (value modulus) := rfl
  rw [hs, if_neg (by omega), if_neg (by omega)]
  refine ⟨fun ps hl hps hlen hz => ?_, fun hl => by rw [if_pos hl]⟩
  rw [if_neg (by omega), hps]
  simp only [Outcome.map', Int.toNat_natCast]
  set n := value modulus
  have hlen' : (0 :: 2 :: (ps ++ 0 :: m)).length = size n := by
    simp only [List.length_cons, List.length_append]
    omega
  have hlt : value (0 :: 2 :: (ps ++ 0 :: m)) < n := block_lt hlen' (by simp)
  have v : Opens n d m (fillBytes (size n) (value (0 :: 2 :: (ps ++ 0 :: m)) ^ value exponent % n)) := by
    refine ⟨ps, by omega, hz, hlen', fill_length (Nat.mod_lt _ (by omega)), ?_⟩
    rw [fill_value, ← Nat.pow_mod, ← pow_mul, pow_of_keyPair hp, Nat.mod_eq_of_lt hlt]
  exact ⟨_, rfl, v, fun m' v' => opens_unique v' v⟩

example : (((newEncryptionKey (numBytes samplePrimes.prod) [2, 81]).encrypt (fun k => .ok (List.replicate k 7)) b!"hi").map' fun c =>
    value c ^ 65537 % samplePrimes.prod) = .ok (value [0, 2, 7, 7, 7, 7, 7, 7, 7, 7, 7, 0, 104, 105]) := by
  decide +kernel

/-- C114: an exponent below 2, or one of 32 to 63 bits, is an error whatever is encrypted.  Of longer
exponents only the last eight bytes count: keys that agree in them encrypt alike. -/
theorem C114_exponent (modulus exponent : Bytes) (pad : Nat → Outcome Bytes) (m : Bytes) :
    (value exponent < 2 ∨ (2 ^ 31 ≤ value exponent ∧ value exponent < 2 ^ 63) →
      (newEncryptionKey modulus exponent).encrypt pad m = .err) ∧
    ∀ front, 8 ≤ exponent.length →
      (newEncryptionKey modulus (front ++ exponent)).encrypt pad m = (newEncryptionKey modulus exponent).encrypt pad m := by
  constructor
  · intro h
    simp only [PublicKey.encrypt, encryptPKCS1v15, newEncryptionKey, value_eq]
    rw [int64_small (by omega)]
    rcases h with h | h
    · rw [if_pos (by omega)]
    · rw [if_neg (by omega), if_pos (by omega)]
  · intro front hl
    have : int64 (setBytes (front ++ exponent)) = int64 (setBytes exponent) := by
      rw [setBytes_append]
      obtain ⟨j, hj⟩ : ∃ j, exponent.length = 8 + j := ⟨_, (Nat.add_sub_cancel' hl).symm⟩
      have e : (256 : Nat) ^ exponent.length = 2 ^ 64 * 256 ^ j := by rw [hj, pow_add]; norm_num
      have e2 : setBytes front * 256 ^ exponent.length + setBytes exponent = 2 ^ 64 * (setBytes front * 256 ^ j) + setBytes exponent := by
        rw [e]; ring
      rw [e2]
      unfold int64
      push_cast
      generalize (setBytes front : Int) * 256 ^ j = y
      omega
    simp only [PublicKey.encrypt, newEncryptionKey, this]

/-- C114: a key does what it says it can do, and panics when it is asked for the other: generated keys
never encrypt, keys of a bank never sign. -/
theorem C114_uses (k : PublicKey) (d : Nat) (pad : Nat → Outcome Bytes) (b : Bytes) :
    (k.sign d b = .panic ↔ k.canSign = false) ∧
    (k.canEncrypt = false → k.encrypt pad b = .panic) ∧
    ((∀ i, pad i ≠ .panic) → k.encrypt pad b = .panic → k.canEncrypt = false) ∧
    (∀ drawn, generateSigningKey drawn = .ok k → k.canSign = true ∧ k.canEncrypt = false) ∧
    (∀ modulus exponent, k = newEncryptionKey modulus exponent → k.canSign = false ∧ k.canEncrypt = true) := by
  refine ⟨?_, ?_, ?_, ?_, ?_⟩
  · unfold PublicKey.sign PublicKey.canSign signPKCS1v15
    cases k.privateKey with
    | none => simp
    | some p =>
      simp only [Option.map_some, Option.isSome_some]
      split_ifs <;> simp
  · unfold PublicKey.encrypt PublicKey.canEncrypt encryptPKCS1v15
    cases k.publicKey <;> simp
  · unfold PublicKey.encrypt PublicKey.canEncrypt encryptPKCS1v15
    intro hpad
    cases k.publicKey with
    | none => simp
    | some p =>
      simp only
      split_ifs <;> simp
      rename_i h1 h2 h3
      cases hq : pad (modulusSize p.1 - b.length - 3) with
      | ok _ => simp
      | err => simp
      | panic => exact absurd hq (hpad _)
  · intro drawn h
    obtain ⟨n, _, rfl⟩ := Dialog.map_ok h
    exact ⟨rfl, rfl⟩
  · rintro m e rfl
    exact ⟨rfl, rfl⟩

/-! ## Signed messages -/

theorem own_shorter {s : Seg} {b : Bytes} (hr : s.header.ref = none) (h : s.marshal = .ok b) : b.length < s.print.length := by
  obtain ⟨h1, h2⟩ := C113_segment_shorter h
  refine Nat.lt_of_le_of_ne h1 fun e => ?_
  have e' : s = newSegment s.header.position s.header.id s.header.version s.elements := by
    obtain ⟨⟨i, p, v, r⟩, es⟩ := s
    simp only at hr
    subst hr
    rfl
  have := h2 e
  subst this
  rw [e'] at h
  exact C113_own _ _ _ _ h

theorem content_shorter {ss : List (Option Seg)} {b : Bytes} (h : marshalSegs ss = .ok b) :
    b.length ≤ ((ss.map fun s => (s.map Seg.print).getD []).flatten).length := by
  induction ss generalizing b with
  | nil => cases h; simp
  | cons s r ih =>
    rw [marshalSegs] at h
    obtain ⟨x, h1, h2⟩ := (Dialog.bind_eq_ok _ _ _).1 h
    obtain ⟨y, h3, rfl⟩ := Dialog.map_ok h2
    have := ih h3
    simp only [List.map_cons, List.flatten_cons, List.length_append]
    cases s with
    | none => cases h1; simpa using this
    | some s =>
      have := (C113_segment_shorter (s := s) h1).1
      simp only [Option.map_some, Option.getD_some]
      omega

theorem header_ref (p : RdhProvider) (v : Version) (now : Time.Civil) (pos : Int) :
    ((p.header v now).setPosition pos).header.ref = none := by cases v <;> rfl

/-- C114: signature header and signature end of a signed message carry the same control reference, the
header also the ID of the signature and the name of the key.  For a new provider the reference is that of
the key name (C99). -/
theorem C114_reference {p : RdhProvider} {m m' : BasicMessage} {hash : Bytes → Bytes} {now : Time.Civil}
    (h : signRdh m hash p now = .ok m') :
    (∃ b e : Seg, m'.sigBegin = some b ∧ m'.sigEnd = some e ∧ b.header.id = c!"HNSHK" ∧ e.header.id = c!"HNSHA" ∧
      some (.alnum p.controlRef 14) ∈ b.elements ∧ e.elements.head? = some (some (.alnum p.controlRef 14)) ∧
      some (.number p.signatureId 16) ∈ b.elements ∧ some (keyNameDE p.keyName) ∈ b.elements) ∧
    ∀ key d name id, p = newRdhProvider key d name id → p.controlRef = controlReference name ∧ p.keyName = name ∧ p.signatureId = id := by
  refine ⟨?_, ?_⟩
  · unfold signRdh at h
    cases hc : m.content with
    | none => rw [hc] at h; cases h
    | some segs =>
      rw [hc] at h
      simp only [BasicMessage.setPositions, Outcome.bind, positionOpt] at h
      obtain ⟨s, h1, rfl⟩ := Dialog.map_ok h
      refine ⟨_, _, rfl, rfl, ?_, ?_, ?_, rfl, ?_, ?_⟩
      · cases m.version <;> rfl
      · cases m.version <;> rfl
      all_goals cases m.version <;> simp [RdhProvider.header, Seg.setPosition, newSegment]
  · rintro key d name id rfl
    exact ⟨rfl, rfl, rfl⟩

/-- C114: what is signed is not what is sent.  A message signed with a generated key is numbered like
any other and carries a signature of the hash of some text; what is sent of signature header and
segments (`head` and `body`) is always shorter than that text.  The bank's check of the signature
against what it received succeeds exactly if the hash function gives the same for both. -/
theorem C114_signed {n d : Nat} {p : RdhProvider} {m m' : BasicMessage} {hash : Bytes → Bytes} {now : Time.Civil}
    (hk : generateSigningKey (.ok n) = .ok p.key) (hd : p.d = d) (hp : KeyPair n 65537 d) (h : signRdh m hash p now = .ok m') :
    ∃ (text signature : Bytes) (segs : List (Option Seg)) (e : Seg), m'.content = some segs ∧ m'.sigEnd = some e ∧
      e.elements = [some (.alnum p.controlRef 14), some (.binary signature 512), none] ∧
      Verifies n 65537 (hash text) signature ∧
      ∀ head body, marshalSegOpt m'.sigBegin = .ok head → marshalSegs segs = .ok body →
        (head ++ body).length < text.length ∧
        (Verifies n 65537 (hash (head ++ body)) signature ↔ hash (head ++ body) = hash text) := by
  subst hd
  unfold signRdh at h
  cases hc : m.content with
  | none => rw [hc] at h; cases h
  | some segs =>
    rw [hc] at h
    simp only [BasicMessage.setPositions, Outcome.bind, positionOpt] at h
    obtain ⟨s, h1, rfl⟩ := Dialog.map_ok h
    have hm : value (numBytes n) = n := by rw [← value_eq, setBytes_numBytes]
    have he : value (numBytes 65537) = 65537 := by rw [← value_eq, setBytes_numBytes]
    have key := C114_signature hk hp
    have hmod : value p.key.modulus = n ∧ value p.key.exponent = 65537 := by
      obtain ⟨n', hn, hk'⟩ := Dialog.map_ok hk
      cases hn
      rw [← hk']
      exact ⟨hm, he⟩
    rw [hmod.1, hmod.2] at key
    set text := signedText _ with ht
    have hv : Verifies n 65537 (hash text) s := by
      have := key (hash text)
      unfold RdhProvider.sign at h1
      by_cases hl : (hash text).length + 11 ≤ size n
      · obtain ⟨s', g1, g2, _⟩ := this.1 hl
        rw [h1] at g1
        cases g1
        exact g2
      · rw [this.2 (by omega)] at h1
        cases h1
    refine ⟨text, s, _, _, rfl, rfl, rfl, hv, fun head body hh hb => ⟨?_, fun v => verifies_unique v hv, fun e => e ▸ hv⟩⟩
    have k1 := own_shorter (header_ref p _ _ _) (show Seg.marshal _ = .ok head from hh)
    have k2 := content_shorter hb
    rw [ht]
    simp only [signedText, Option.map_some, Option.getD_some, List.length_append]
    omega

/-- A message signed with the small key and a hash function that tells texts apart by their length. -/
def sampleSigned : Outcome BasicMessage :=
  (generateSigningKey (.ok samplePrimes.prod)).bind fun k =>
    signRdh sampleInit (fun b => [UInt8.ofNat b.length]) (newRdhProvider k 593 ⟨280, c!"50010060", c!"4711", c!"S", 999, 999⟩ 1)
      ⟨2024, 2, 29, 12, 30, 0, 0⟩

example : ∃ m, sampleSigned = .ok m ∧ (signedText m).length = 130 ∧ (marshalSegOpt m.sigBegin).map' List.length = .ok 97 ∧
    (marshalSegs (m.content.getD [])).map' List.length = .ok 26 := by
  have h : (sampleSigned.map' fun m => ((signedText m).length, (marshalSegOpt m.sigBegin).map' List.length,
      (marshalSegs (m.content.getD [])).map' List.length)) = .ok (130, .ok 97, .ok 26) := by decide +kernel
  obtain ⟨m, h1, h2⟩ := Dialog.map_ok h
  simp only [Prod.mk.injEq] at h2
  exact ⟨m, h1, h2⟩

end Verif.Keys

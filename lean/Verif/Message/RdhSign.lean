import Verif.Message.Keys
import Verif.Message.Texts

/-
Model of signing and encrypting with RSA keys: domain/key.go:143-232 and the RDH provider of
message/signature.go, with the parts of crypto/rsa they call.
-/

namespace Verif.Keys

open GoLib Element Segment Message

/-! ## crypto/rsa -/

/-- `(*rsa.PublicKey).Size`: the number of bytes of the modulus. -/
def modulusSize (n : Nat) : Nat := (Crypto.bitLen n + 7) / 8

/-- `big.Int.FillBytes` of a buffer of `k` bytes.  Simplification: numbers that do not fit (a panic)
do not occur here. -/
def fillBytes (k n : Nat) : Bytes := List.replicate (k - (Crypto.numBytes n).length) 0 ++ Crypto.numBytes n

/-- `rsa.SignPKCS1v15(rand.Reader, key, 0, hashed)` for modulus, public and private exponent: nil
panics, the value is processed with the private exponent and checked with the public one.
Simplifications: the blinding, which cancels out, and the factors, which give the same, are left
out; the source of randomness does not fail. -/
def signPKCS1v15 (key : Option (Nat × Nat × Nat)) (hashed : Bytes) : Outcome Bytes :=
  match key with
  | none => .panic
  | some (n, e, d) =>
    if modulusSize n < hashed.length + 11 then .err
    else
      let em : Bytes := 0 :: 1 :: (List.replicate (modulusSize n - hashed.length - 3) 255 ++ 0 :: hashed)
      let c := Crypto.setBytes em ^ d % n
      if c ^ e % n = Crypto.setBytes em then .ok (fillBytes (modulusSize n) c) else .err

/-- `rsa.EncryptPKCS1v15(rand.Reader, key, msg)`; `pad k` is what the source of randomness gives for
`k` bytes that must not be zero. -/
def encryptPKCS1v15 (pad : Nat → Outcome Bytes) (key : Option (Nat × Int)) (msg : Bytes) : Outcome Bytes :=
  match key with
  | none => .panic
  | some (n, e) =>
    if e < 2 then .err
    else if 2 ^ 31 - 1 < e then .err
    else if modulusSize n < msg.length + 11 then .err
    else (pad (modulusSize n - msg.length - 3)).map' fun ps =>
      fillBytes (modulusSize n) (Crypto.setBytes (0 :: 2 :: (ps ++ 0 :: msg)) ^ e.toNat % n)

/-! ## Keys -/

/-- /repo/domain/key.go:225-227 `PublicKey.Sign` (and /repo/message/signature.go:33-35
`SignMessageHash`); the private exponent `d` is a parameter, see `PublicKey`. -/
def PublicKey.sign (k : PublicKey) (d : Nat) (message : Bytes) : Outcome Bytes :=
  signPKCS1v15 (k.privateKey.map fun p => (p.1, p.2, d)) message

/-- /repo/domain/key.go:230-232 `PublicKey.Encrypt`. -/
def PublicKey.encrypt (pad : Nat → Outcome Bytes) (k : PublicKey) (message : Bytes) : Outcome Bytes :=
  encryptPKCS1v15 pad k.publicKey message

/-- /repo/domain/key.go:184-186 `RSAKey.CanSign`. -/
def PublicKey.canSign (k : PublicKey) : Bool := k.privateKey.isSome

/-- /repo/domain/key.go:189-191 `RSAKey.CanEncrypt`. -/
def PublicKey.canEncrypt (k : PublicKey) : Bool := k.publicKey.isSome

/-! ## The RDH signature provider -/

/-- /repo/message/signature.go:103-109 `rdhSignatureProvider`; the key with its private exponent and
its name. -/
structure RdhProvider where
  key : PublicKey
  d : Nat
  keyName : KeyName
  clientSystemId : Str
  controlRef : Str
  securityFn : Str
  signatureId : Int

/-- /repo/message/signature.go:93-101 `NewRDHSignatureProvider`. -/
def newRdhProvider (key : PublicKey) (d : Nat) (keyName : KeyName) (signatureId : Int) : RdhProvider :=
  ⟨key, d, keyName, [], controlReference keyName, c!"1", signatureId⟩

/-- /repo/message/signature.go:119-122 `Sign`; `hash` is RIPEMD-160 (:25-30). -/
def RdhProvider.sign (p : RdhProvider) (hash : Bytes → Bytes) (message : Bytes) : Outcome Bytes := p.key.sign p.d (hash message)

/-- The signature header as /repo/message/signature.go:124-130 fills it:
/repo/segment/signature_header.go:19-33 with :111-150 (version 3) and :152-166 with :213-258
(version 4). -/
def RdhProvider.header (p : RdhProvider) (v : Version) (now : Time.Civil) : Seg :=
  match v with
  | .hbci220 =>
    newSegment 2 c!"HNSHK" 3
      [some (.alnum p.securityFn 3), some (.alnum p.controlRef 14), some (.alnum c!"1" 3), some (.alnum c!"1" 3),
       some (securityId p.clientSystemId), some (.number p.signatureId 16), some (securityDate now), some hashAlgorithm,
       some signatureAlgorithm, some (keyNameDE p.keyName), none]
  | .fints300 =>
    newSegment 2 c!"HNSHK" 4
      [some (securityProfile (profileFor p.securityFn)),
       some (.code p.securityFn 3 (newCodeSet [c!"1", c!"2", c!"999", p.securityFn])), some (.alnum p.controlRef 14),
       some (.code c!"1" 3 [c!"1", c!"2"]), some (.code c!"1" 3 [c!"1", c!"3", c!"4"]),
       some (securityId p.clientSystemId), some (.number p.signatureId 16), some (securityDate now), some hashAlgorithm,
       some signatureAlgorithm, some (keyNameDE p.keyName), none]

/-- /repo/segment/signature_end.go:11-19 and :64-72: the signature end before it is filled. -/
def emptySignatureEnd (v : Version) : Seg :=
  newSegment (-1) c!"HNSHA" (match v with | .hbci220 => 1 | .fints300 => 2) [none, none, none]

/-- /repo/message/signature.go:132-135 `WriteSignature` with /repo/segment/signature_end.go:53-59,
:94-100. -/
def RdhProvider.writeSignature (p : RdhProvider) (s : Seg) (signature : Bytes) : Seg :=
  { s with elements := [some (.alnum p.controlRef 14), some (.binary signature 512), none] }

/-- What /repo/message/message.go:242-248 writes to the buffer: `String` of the signature header and of
every segment that is not nil. -/
def signedText (m : BasicMessage) : Bytes :=
  (m.sigBegin.map Seg.print).getD [] ++ ((m.content.getD []).map fun s => (s.map Seg.print).getD []).flatten

/-- /repo/message/message.go:233-256 `Sign` with the RDH provider; the clock and the hash function are
parameters. -/
def signRdh (m : BasicMessage) (hash : Bytes → Bytes) (p : RdhProvider) (now : Time.Civil) : Outcome BasicMessage :=
  match m.content with
  | none => .panic
  | some _ =>
    { m with sigBegin := some (p.header m.version now), sigEnd := some (emptySignatureEnd m.version) }.setPositions.bind fun m =>
      (p.sign hash (signedText m)).map' fun signature =>
        { m with sigEnd := m.sigEnd.map fun s => p.writeSignature s signature }

end Verif.Keys

import Verif.Dialog.Model
import Verif.Crypto.Model

/-
Model of the key management segments: domain/key.go (RSA keys), element/key_management.go,
segment/key_management.go; and of dialog/rdh_dialog.go.
-/

namespace Verif.Keys

open GoLib Element Segment Message

/-! ## Public keys -/

/-- /repo/domain/key.go:211-217 `PublicKey`: the name of its use, modulus and exponent as bytes, and the
RSA keys behind it, nil or modulus and exponent as numbers (the private exponent is left out, nothing
here reads it). -/
structure PublicKey where
  usage : Str
  modulus : Bytes
  exponent : Bytes
  privateKey : Option (Nat × Nat)
  publicKey : Option (Nat × Int)
  deriving DecidableEq, Repr

/-- Go's `copy(dst, src)`: as many bytes as fit. -/
def goCopy (dst src : Bytes) : Bytes := src.take dst.length ++ dst.drop src.length

/-- `int(x.Int64())` of a `big.Int` that is not negative: the low 64 bits, read as a signed number. -/
def int64 (n : Nat) : Int := ((n : Int) + 2 ^ 63) % 2 ^ 64 - 2 ^ 63

/-- /repo/domain/key.go:143-155 `GenerateSigningKey`, given what `rsa.GenerateKey` returns: an error, or
a modulus; the exponent of its keys is always 65537. -/
def generateSigningKey (drawn : Outcome Nat) : Outcome PublicKey :=
  drawn.map' fun n => ⟨c!"S", Crypto.numBytes n, Crypto.numBytes 65537, some (n, 65537), none⟩

/-- /repo/domain/key.go:194-208 `NewEncryptionKey`: the bytes are copied into slices that are still nil. -/
def newEncryptionKey (modulus exponent : Bytes) : PublicKey :=
  ⟨c!"V", goCopy [] modulus, goCopy [] exponent, none, some (Crypto.setBytes modulus, int64 (Crypto.setBytes exponent))⟩

/-- /repo/element/key_management.go:11-26 `NewPublicKey` with the elements of :48-58. -/
def publicKeyDE (k : PublicKey) : Outcome DE :=
  if k.exponent ≠ b!"65537" then .panic
  else .ok (.group 7 [some (.alnum k.usage 3), some (.alnum c!"16" 3), some (.alnum c!"10" 3), some (.binary k.modulus 512),
    some (.alnum c!"12" 3), some (.binary k.exponent 512), some (.alnum c!"13" 3)])

/-! ## Segments -/

/-- /repo/segment/key_management.go:12-24 `NewPublicKeyRenewalSegment` with :38-51. -/
def renewalSeg (number : Int) (k : KeyName) (p : PublicKey) : Outcome Seg :=
  if k.keyType = c!"B" then .panic
  else (publicKeyDE p).map' fun d =>
    newSegment number c!"HKSAK" 2 [some (.number 2 1), some (.number 112 3), some (keyNameDE k), some d, none]

/-- /repo/segment/key_management.go:53-61 `NewPublicKeyRequestSegment` with :73-85. -/
def requestSeg (number : Int) (k : KeyName) : Seg :=
  newSegment number c!"HKISA" 2 [some (.number 2 1), some (.number 124 3), some (keyNameDE k), none]

/-- /repo/segment/key_management.go:87-102 `NewPublicKeyTransmissionSegment` with :117-132; `request` is
the segment that is answered. -/
def transmissionSeg (dialogId : Str) (number messageRef : Int) (k : KeyName) (p : PublicKey) (request : Seg) : Outcome Seg :=
  if messageRef ≤ 0 then .panic
  else (publicKeyDE p).map' fun d =>
    newReferencingSegment number request.header.position c!"HIISA" 2
      [some (.number 1 1), some (.identification dialogId 30), some (.number messageRef 4), some (.number 224 3),
       some (keyNameDE k), some d, none]

/-- The loop of `sort.Search`: the smallest index in `[i, j)` where `f` holds, if `f` is monotone. -/
def search (f : Nat → Bool) (i j : Nat) : Nat :=
  if i < j then
    if f ((i + j) / 2) then search f i ((i + j) / 2) else search f ((i + j) / 2 + 1) j
  else i
termination_by j - i
decreasing_by all_goals omega

/-- `sort.SearchStrings(a, x)`: `sort.Search(len(a), func(i) { a[i] >= x })`.  Go compares the bytes of
the UTF-8 text, which orders as the code points do. -/
def searchStrings (a : List Str) (x : Str) : Nat := search (fun i => decide (x ≤ a.getD i [])) 0 a.length

/-- /repo/segment/key_management.go:134-144: the three reasons. -/
def validRevocationReasons : List Str := [c!"1", c!"501", c!"999"]

/-- /repo/segment/key_management.go:146-159 `NewPublicKeyRevocationSegment` with :176-190; the clock is a
parameter. -/
def revocationSeg (number : Int) (k : KeyName) (reason : Str) (now : Time.Civil) : Outcome Seg :=
  if searchStrings validRevocationReasons reason > validRevocationReasons.length then .panic
  else .ok (newSegment number c!"HKSSP" 2
    [some (.number 2 1), some (.number 130 3), some (keyNameDE k), some (.alnum reason 3), some (securityDate now), none])

/-- /repo/segment/key_management.go:192-211 `NewPublicKeyRevocationConfirmationSegment` with :231-247. -/
def confirmationSeg (dialogId : Str) (number messageRef : Int) (k : KeyName) (reason : Str) (request : Seg)
    (now : Time.Civil) : Outcome Seg :=
  if messageRef ≤ 0 then .panic
  else if searchStrings validRevocationReasons reason > validRevocationReasons.length then .panic
  else .ok (newReferencingSegment number request.header.position c!"HISSP" 2
    [some (.number 1 1), some (.identification dialogId 30), some (.number messageRef 4), some (.number 231 3),
     some (keyNameDE k), some (.alnum reason 3), some (securityDate now), none])

end Verif.Keys

/-! ## The RDH dialog -/

namespace Verif.Rdh

open GoLib Element Segment Message Dialog

/-- /repo/dialog/dialog.go:63-83 `dialog` with the RDH signature provider; crypto provider and transport
are interfaces that may be nil.  Left out: what only an answer of the bank changes. -/
structure RdhDialog where
  bankId : BankId
  clientId : Str
  clientSystemId : Str
  securityFn : Str
  messageCount : Int
  dialogId : Str
  version : Version
  productName : Str
  productVersion : Str
  crypto : Option CryptoProvider
  transport : Option (Bytes → Outcome Unit)

/-- What `Sign(d.signatureProvider)` makes of a message: with a new RSA key, random bytes and a clock, a
parameter of the model, different for each call and free to fail. -/
abbrev Signer := Nat → BasicMessage → Outcome BasicMessage

/-- The state of the program: the dialog, the number of messages begun, and the texts handed to the
transport. -/
structure St where
  d : RdhDialog
  step : Nat
  sent : List Bytes

/-- /repo/dialog/dialog.go:448-454 `newBasicMessage`. -/
def newMessage (segs : List (Option Seg)) (version : Version) (s : St) : BasicMessage × St :=
  let n := s.d.messageCount + 1
  ({ header := newMsgHeader (-1) s.d.version.number s.d.dialogId n, end_ := ⟨-1, n⟩, sigBegin := none, sigEnd := none,
     content := some segs, version := version, cache := [] },
   { s with d := { s.d with messageCount := n }, step := s.step + 1 })

/-- /repo/message/message.go:259-296 `Encrypt` with a provider that may be nil: :285 calls a method of it. -/
def encrypt (m : BasicMessage) (p : Option CryptoProvider) (now : Time.Civil) : Outcome BasicMessage :=
  match p with
  | some p => (m.encrypt p now).map' (·.msg)
  | none =>
    match m.content with
    | none => .err
    | some segs =>
      (marshalSegOpt m.sigBegin).bind fun _ =>
        (marshalSegs segs).bind fun _ => (marshalSegOpt m.sigEnd).bind fun _ => .panic

/-- /repo/dialog/dialog.go:582-600 `request` up to the answer, with a transport that may be nil. -/
def request (m : BasicMessage) (s : St) : Outcome Unit × St :=
  match m.marshal with
  | .ok (b, _) =>
    match s.d.transport with
    | some t => (t b, { s with sent := s.sent ++ [b] })
    | none => (.panic, s)
  | .err => (.err, s)
  | .panic => (.panic, s)

/-- Encrypt and send a signed message. -/
def requestEncrypted (now : Time.Civil) (m : BasicMessage) (s : St) : Outcome Unit × St :=
  match encrypt m s.d.crypto now with
  | .ok e => request e s
  | .err => (.err, s)
  | .panic => (.panic, s)

/-- /repo/dialog/dialog.go:157-179 `SyncClientSystemID` up to the answer: :169 calls a method of the crypto
provider. -/
def sync (sign : Signer) (now : Time.Civil) (s : St) : Outcome Unit × St :=
  let segs := [some (identificationSeg s.d.bankId s.d.clientId c!"0" true),
    some (preparationSeg 0 0 1 s.d.productName s.d.productVersion), some (tanRequestV6 c!"HKIDN"), none, none, none,
    some (synchronisationSeg s.d.version)]
  let p := newMessage segs s.d.version s
  match sign p.2.step p.1 with
  | .ok m =>
    match p.2.d.crypto with
    | none => (.panic, p.2)
    | some c => requestEncrypted now m { p.2 with d := { p.2.d with crypto := some { c with clientSystemId := c!"0" } } }
  | .err => (.err, p.2)
  | .panic => (.panic, p.2)

/-- /repo/dialog/dialog.go:345-367, the rest of `init`, up to the answer. -/
def open_ (sign : Signer) (now : Time.Civil) (s : St) : Outcome Unit × St :=
  let s := { s with d := { s.d with dialogId := c!"0", messageCount := 0 } }
  let segs := [some (identificationSeg s.d.bankId s.d.clientId s.d.clientSystemId true),
    some (preparationSeg 0 0 1 s.d.productName s.d.productVersion), some (tanRequestV6 c!"HKIDN"), none, none, none]
  let p := newMessage segs s.d.version s
  match sign p.2.step p.1 with
  | .ok m => requestEncrypted now m p.2
  | .err => (.err, p.2)
  | .panic => (.panic, p.2)

/-- /repo/dialog/dialog.go:337-367 `init`. -/
def init (sign : Signer) (now : Time.Civil) (s : St) : Outcome Unit × St :=
  if s.d.clientSystemId = c!"0" then
    match sync sign now s with
    | (.ok _, s') => open_ sign now s'
    | r => r
  else open_ sign now s

/-- /repo/dialog/dialog.go:261-274 `anonymousInit` up to the answer. -/
def anonymousInit (s : St) : Outcome Unit × St :=
  let s := { s with d := { s.d with dialogId := c!"0", messageCount := 0 } }
  let segs := [some (identificationSeg s.d.bankId c!"9999999999" c!"0" false),
    some (preparationSeg 0 0 1 s.d.productName s.d.productVersion), none, none, none, none]
  let p := newMessage segs s.d.version s
  match p.1.setPositions with
  | .ok m => request m p.2
  | .err => (.err, p.2)
  | .panic => (.panic, p.2)

/-- The calls of the dialog's methods: the two of the interface `Dialog`, /repo/dialog/dialog.go:23-26, and
those a caller reaches with a type assertion. -/
inductive Call where
  | sync
  | send
  | syncUser
  | sendAnonymous
  | setClientSystemId (id : Str)
  | setSecurityFunction (fn : Str)

/-- One call.  `SendMessage` (/repo/dialog/dialog.go:109-113), `SyncUserParameterData` (:144-149) and
`SendAnonymousMessage` (:232-236) begin with `init` or `anonymousInit` and return its error; the model stops there, so
a success here means that the call went on.  The setters are :97-107. -/
def run (sign : Signer) (now : Time.Civil) (c : Call) (s : St) : Outcome Unit × St :=
  match c with
  | .sync => sync sign now s
  | .send => init sign now s
  | .syncUser => init sign now s
  | .sendAnonymous => anonymousInit s
  | .setClientSystemId i =>
    match s.d.crypto with
    | none => (.panic, { s with d := { s.d with clientSystemId := i } })
    | some p => (.ok (), { s with d := { s.d with clientSystemId := i, crypto := some { p with clientSystemId := i } } })
  | .setSecurityFunction f =>
    match s.d.crypto with
    | none => (.panic, { s with d := { s.d with securityFn := f } })
    | some p => (.ok (), { s with d := { s.d with securityFn := f, crypto := some { p with securityFn := f } } })

/-- The results of a sequence of calls and the state afterwards; the caller recovers from panics. -/
def runAll (sign : Signer) (now : Nat → Time.Civil) : List Call → St → List (Outcome Unit) × St
  | [], s => ([], s)
  | c :: cs, s =>
    let r := run sign (now s.step) c s
    let q := runAll sign now cs r.2
    (r.1 :: q.1, q.2)

/-- /repo/dialog/rdh_dialog.go:10-21 `NewRDHDialog` with /repo/dialog/dialog.go:36-61: a failure to
generate a key is a panic; the crypto provider is given as nil, the transport is never set. -/
def newRdhDialog (drawn : Outcome Nat) (bank : BankId) (userId : Str) (version : Version)
    (productName productVersion : Str) : Outcome RdhDialog :=
  match Keys.generateSigningKey drawn with
  | .ok _ => .ok ⟨bank, userId, c!"0", [], 0, c!"0", version, productName, productVersion, none, none⟩
  | _ => .panic

end Verif.Rdh

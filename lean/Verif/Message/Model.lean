import Verif.Segment.Model
import Verif.Element.Groups
import Verif.Message.Extractor

/-
Model of the client side of message/message.go, message/signature.go,
message/crypto.go and message/encryption.go for PIN/TAN, with the segments and
elements they use.
-/

namespace Verif.Message

open GoLib Element Segment

/-! ## Keys and security elements -/

/-- /repo/domain/key.go:61-67 `KeyName`, with the two fields of
/repo/domain/bank_id.go:4-7 `BankID`. -/
structure KeyName where
  country : Int
  bankId : Str
  userId : Str
  keyType : Str
  number : Int
  version : Int
  deriving DecidableEq, Repr

/-- /repo/domain/key.go:86-89 `PinKey`. -/
structure PinKey where
  pin : Str
  keyName : KeyName
  deriving DecidableEq, Repr

/-- /repo/element/signature.go:309-319 `NewKeyName`. -/
def keyNameDE (k : KeyName) : DE :=
  .group 5 [some (bankIdentification k.country k.bankId), some (.identification k.userId 30),
    some (.alnum k.keyType 1), some (.number k.number 3), some (.number k.version 3)]

/-- /repo/element/signature.go:19-34 `NewRDHSecurityIdentification` for the message
sender, the only holder used. -/
def securityId (clientSystemId : Str) : DE :=
  .group 3 [some (.alnum c!"1" 3), none, some (.identification clientSystemId 30)]

/-- /repo/element/signature.go:96-112 `NewSecurityDate` for a security timestamp; the
current time is a parameter. -/
def securityDate (now : Time.Civil) : DE := .group 3 [some (.alnum c!"1" 3), some (.date now), some (.time now)]

/-- /repo/element/signature.go:167-175 `NewDefaultHashAlgorithm`. -/
def hashAlgorithm : DE := .group 4 [some (.alnum c!"1" 3), some (.alnum c!"999" 3), some (.alnum c!"1" 3), none]

/-- /repo/element/signature.go:242-250 `NewRDHSignatureAlgorithm`. -/
def signatureAlgorithm : DE := .group 3 [some (.alnum c!"6" 3), some (.alnum c!"10" 3), some (.alnum c!"16" 3)]

/-- /repo/element/signature_fints3.go:7-14 `NewPinTanSecurityProfile`. -/
def securityProfile (method : Int) : DE := .group 2 [some (.alnum c!"PIN" 3), some (.number method 3)]

/-- /repo/element/encryption.go:7-18 `NewPinTanEncryptionAlgorithm`; the key is
`defaultPinTan` of /repo/element/pin.go:10. -/
def pinTanEncryptionAlgorithm : DE :=
  .group 7 [some (.alnum c!"2" 3), some (.alnum c!"2" 3), some (.alnum c!"13" 3),
    some (.binary (List.replicate 8 0) 512), some (.alnum c!"5" 3), some (.alnum c!"1" 3), none]

/-- /repo/element/pin.go:34-43 `NewPinTan` (maximal lengths 6 and 35) and :14-26
`NewCustomSignature` (99 and 99). -/
def pinTanDE (pinMax tanMax : Int) (pin tan : Str) : DE :=
  .group 2 [some (.alnum pin pinMax), if tan = [] then none else some (.alnum tan tanMax)]

/-! ## HBCI versions -/

/-- The two versions of /repo/segment/hbci_version.go:11-14. -/
inductive Version where
  | hbci220
  | fints300
  deriving DecidableEq, Repr

/-- /repo/segment/hbci220.go:4 and /repo/segment/fints300.go:4. -/
def Version.number : Version → Int
  | .hbci220 => 220
  | .fints300 => 300

/-- /repo/segment/encryption_header.go:195-201 and /repo/segment/signature_header.go:213-220:
the security profile that goes with a security function. -/
def profileFor (securityFn : Str) : Int := if securityFn = c!"999" then 1 else 2

/-- The encryption header HNVSK as `Encrypt` and the PIN/TAN provider leave it:
/repo/segment/encryption_header.go:20-36 with :89-116 (version 2) and :118-135 with
:164-201 (version 3), as filled by /repo/message/crypto.go:54-59.  The certificate
is nil. -/
def encryptionHeader (v : Version) (securityFn clientSystemId : Str) (k : KeyName) (now : Time.Civil) : Seg :=
  match v with
  | .hbci220 =>
    newSegment 998 c!"HNVSK" 2
      [some (.alnum c!"998" 3), some (.alnum c!"1" 3), some (securityId clientSystemId), some (securityDate now),
       some pinTanEncryptionAlgorithm, some (keyNameDE k), some (.alnum c!"0" 3), none]
  | .fints300 =>
    newSegment 998 c!"HNVSK" 3
      [some (securityProfile (profileFor securityFn)), some (.code c!"998" 3 [c!"4", c!"998"]),
       some (.code c!"1" 3 [c!"1", c!"4"]), some (securityId clientSystemId), some (securityDate now),
       some pinTanEncryptionAlgorithm, some (keyNameDE k),
       some (.code c!"0" 3 [c!"0", c!"1", c!"2", c!"3", c!"4", c!"5", c!"6", c!"7", c!"999"]), none]

/-- /repo/segment/encrypted_data.go:5-11 `NewEncryptedDataSegment`. -/
def encryptedData (d : Bytes) : Seg := newSegment 999 c!"HNVSD" 1 [some (.binary d (-1))]

/-- The signature header HNSHK as `Sign` and the PIN/TAN provider leave it:
/repo/segment/signature_header.go:19-33 with :111-150 (version 3) and :152-166 with
:213-258 (version 4), as filled by /repo/message/signature.go:79-85. -/
def signatureHeader (v : Version) (securityFn controlRef clientSystemId : Str) (k : KeyName) (now : Time.Civil) : Seg :=
  match v with
  | .hbci220 =>
    newSegment 2 c!"HNSHK" 3
      [some (.alnum securityFn 3), some (.alnum controlRef 14), some (.alnum c!"1" 3), some (.alnum c!"1" 3),
       some (securityId clientSystemId), some (.number 0 16), some (securityDate now), some hashAlgorithm,
       some signatureAlgorithm, some (keyNameDE k), none]
  | .fints300 =>
    newSegment 2 c!"HNSHK" 4
      [some (securityProfile (profileFor securityFn)),
       some (.code securityFn 3 (newCodeSet [c!"1", c!"2", c!"999", securityFn])), some (.alnum controlRef 14),
       some (.code c!"1" 3 [c!"1", c!"2"]), some (.code c!"1" 3 [c!"1", c!"3", c!"4"]),
       some (securityId clientSystemId), some (.number 0 16), some (securityDate now), some hashAlgorithm,
       some signatureAlgorithm, some (keyNameDE k), none]

/-- The signature end HNSHA: /repo/segment/signature_end.go:11-19 with :44-63 (version
1) and :64-72 with :92-105 (version 2), as filled by /repo/message/signature.go:87-90. -/
def signatureEnd (v : Version) (controlRef pin : Str) : Seg :=
  match v with
  | .hbci220 => newSegment (-1) c!"HNSHA" 1 [some (.alnum controlRef 14), none, some (pinTanDE 6 35 pin [])]
  | .fints300 => newSegment (-1) c!"HNSHA" 2 [some (.alnum controlRef 14), none, some (pinTanDE 99 99 pin [])]

/-! ## Message header and end -/

/-- /repo/segment/message_header.go:29-36 `MessageHeaderSegment` as the constructors
:10-25 make it: no pointer but the reference is nil. -/
structure MsgHeader where
  position : Int
  size : Int
  hbciVersion : Int
  dialogId : Str
  number : Int
  ref : Option (Str × Int)
  deriving DecidableEq, Repr

/-- /repo/segment/message_header.go:16-25 `NewMessageHeaderSegment`. -/
def newMsgHeader (size hbciVersion : Int) (dialogId : Str) (number : Int) : MsgHeader :=
  ⟨1, size, hbciVersion, dialogId, number, none⟩

/-- /repo/element/message.go:13-20 `NewReferencingMessage`. -/
def referencingMessage (r : Str × Int) : DE := .group 2 [some (.identification r.1 30), some (.number r.2 4)]

/-- /repo/segment/message_header.go:38-63: the segment with its elements. -/
def MsgHeader.seg (h : MsgHeader) : Seg :=
  newSegment h.position c!"HNHBK" 3
    [some (.digit h.size 12), some (.number h.hbciVersion 3), some (.identification h.dialogId 30),
     some (.number h.number 4), h.ref.map referencingMessage]

/-- /repo/segment/message_end.go:15-18 `MessageEndSegment`, never nil pointers. -/
structure MsgEnd where
  position : Int
  number : Int
  deriving DecidableEq, Repr

/-- /repo/segment/message_end.go:20-29. -/
def MsgEnd.seg (e : MsgEnd) : Seg := newSegment e.position c!"HNHBS" 1 [some (.number e.number 4)]

/-! ## BasicMessage -/

/-- /repo/message/message.go:100-108 `BasicMessage`.  `content` holds the segments of
the embedded `HBCIMessage`, `none` for a nil interface; a nil segment pointer in it is
`none`.  Simplification: header and end are not nil (every constructor call in the
repository that is marshalled sets them), and no segment occurs twice. -/
structure BasicMessage where
  header : MsgHeader
  end_ : MsgEnd
  sigBegin : Option Seg
  sigEnd : Option Seg
  content : Option (List (Option Seg))
  version : Version
  cache : Bytes

/-- One segment of the loops in /repo/message/message.go:146-161, nothing for nil. -/
def marshalSegOpt : Option Seg → Outcome Bytes
  | none => .ok []
  | some s => s.marshal

/-- The loop of /repo/message/message.go:153-161 (and :208-216, :270-278). -/
def marshalSegs : List (Option Seg) → Outcome Bytes
  | [] => .ok []
  | s :: r => (marshalSegOpt s).bind fun b => (marshalSegs r).map' fun bs => b ++ bs

/-- The buffer of /repo/message/message.go:140-173, and again of :195-227. -/
def BasicMessage.bytes (m : BasicMessage) (segs : List (Option Seg)) : Outcome Bytes :=
  m.header.seg.marshal.bind fun h =>
    (marshalSegOpt m.sigBegin).bind fun sb =>
      (marshalSegs segs).bind fun b =>
        (marshalSegOpt m.sigEnd).bind fun se =>
          m.end_.seg.marshal.map' fun e => h ++ sb ++ b ++ se ++ e

/-- /repo/message/message.go:136-176 `SetSize`. -/
def BasicMessage.setSize (m : BasicMessage) : Outcome BasicMessage :=
  match m.content with
  | none => .err
  | some segs => (m.bytes segs).map' fun b => { m with header := { m.header with size := b.length } }

/-- /repo/message/message.go:184-230 `MarshalHBCI`: the bytes and the message
afterwards. -/
def BasicMessage.marshal (m : BasicMessage) : Outcome (Bytes × BasicMessage) :=
  match m.content with
  | none => .err
  | some segs =>
    m.setSize.bind fun m' =>
      if m'.cache = [] then (m'.bytes segs).map' fun b => (b, { m' with cache := b })
      else .ok (m'.cache, m')

/-- /repo/message/message.go:179-181 `SetMessageNumber`: the header only. -/
def BasicMessage.setMessageNumber (m : BasicMessage) (n : Int) : BasicMessage :=
  { m with header := { m.header with number := n } }

/-- Number an optional segment, drawing from the counter `n` if it is there. -/
def positionOpt (n : Int) : Option Seg → Option Seg × Int
  | none => (none, n)
  | some s => (some (s.setPosition (n + 1)), n + 1)

/-- The loop of /repo/message/message.go:124-128. -/
def positionAll (n : Int) : List (Option Seg) → List (Option Seg) × Int
  | [] => ([], n)
  | s :: r =>
    let p := positionOpt n s
    let q := positionAll p.2 r
    (p.1 :: q.1, q.2)

/-- /repo/message/message.go:111-133 `SetSegmentPositions`. -/
def BasicMessage.setPositions (m : BasicMessage) : Outcome BasicMessage :=
  match m.content with
  | none => .panic
  | some segs =>
    let sb := positionOpt 1 m.sigBegin
    let ss := positionAll sb.2 segs
    let se := positionOpt ss.2 m.sigEnd
    .ok { m with
      header := { m.header with position := 1 }
      sigBegin := sb.1
      content := some ss.1
      sigEnd := se.1
      end_ := { m.end_ with position := se.2 + 1 } }

/-- /repo/message/message.go:377-382 `BasicSignedMessage.SetSegmentPositions`. -/
def BasicMessage.setPositionsSigned (m : BasicMessage) : Outcome BasicMessage :=
  if m.sigBegin.isNone || m.sigEnd.isNone then .panic else m.setPositions

/-! ## Signing and encrypting with PIN/TAN -/

/-- /repo/message/signature.go:60-65 `pinTanSignatureProvider`.  The control reference
(:37-47, a CRC-32 of the key name) is a value like any other here. -/
structure SignatureProvider where
  key : PinKey
  clientSystemId : Str
  securityFn : Str
  controlRef : Str

/-- /repo/message/message.go:233-256 `Sign` with the PIN/TAN provider.  The signature
itself is the PIN (/repo/domain/key.go:122-124) and is dropped by
/repo/message/signature.go:87-90, so the text that is signed plays no role;
the clock is a parameter. -/
def BasicMessage.sign (m : BasicMessage) (p : SignatureProvider) (now : Time.Civil) : Outcome BasicMessage :=
  match m.content with
  | none => .panic
  | some _ =>
    { m with
      sigBegin := some (signatureHeader m.version p.securityFn p.controlRef p.clientSystemId p.key.keyName now)
      sigEnd := some (signatureEnd m.version p.controlRef p.key.pin) }.setPositions

/-- /repo/message/crypto.go:29-33 `pinTanCryptoProvider`. -/
structure CryptoProvider where
  key : PinKey
  clientSystemId : Str
  securityFn : Str

/-- /repo/message/crypto.go:43-48 `Encrypt` with /repo/domain/key.go:127-132. -/
def CryptoProvider.encrypt (p : CryptoProvider) (m : Bytes) : Outcome Bytes :=
  if p.key.pin = [] then .err else .ok m

/-- /repo/message/crypto.go:50-52 `Decrypt` with /repo/domain/key.go:135-140. -/
def CryptoProvider.decrypt (_ : CryptoProvider) (m : Bytes) : Outcome Bytes := .ok m

/-- /repo/message/encryption.go:31-36 `EncryptedMessage`: the wrapped basic message and
the contents of the encrypted data segment. -/
structure EncryptedMessage where
  msg : BasicMessage
  data : Bytes

/-- /repo/message/message.go:259-296 `Encrypt` with the PIN/TAN provider. -/
def BasicMessage.encrypt (m : BasicMessage) (p : CryptoProvider) (now : Time.Civil) : Outcome EncryptedMessage :=
  match m.content with
  | none => .err
  | some segs =>
    (marshalSegOpt m.sigBegin).bind fun sb =>
      (marshalSegs segs).bind fun b =>
        (marshalSegOpt m.sigEnd).bind fun se =>
          (p.encrypt (sb ++ b ++ se)).map' fun d =>
            ⟨{ header := m.header, end_ := m.end_, sigBegin := none, sigEnd := none, version := m.version, cache := []
               content := some [some (encryptionHeader m.version p.securityFn p.clientSystemId p.key.keyName now),
                 some (encryptedData d)] }, d⟩

/-! ## Reading the parts of a response -/

/-- A message header as `UnmarshalHBCI` leaves it: nil pointers are `none`. -/
structure ReadHeader where
  header : Header
  size : Option Int
  hbciVersion : Option Int
  dialogId : Option Str
  number : Option Int
  ref : Option (Str × Int)
  deriving DecidableEq, Repr

/-- Field `i` of a generated unmarshaler: left nil unless present and non-empty. -/
def field {α : Type} (es : List Bytes) (i : Nat) (f : Bytes → Outcome α) : Outcome (Option α) :=
  match es[i]? with
  | none => .ok none
  | some b => if b = [] then .ok none else (f b).map' some

/-- /repo/element/message.go:48-60 `ReferencingMessageDataElement.UnmarshalHBCI`: an
extraction error yields no elements and hence fails too; the dialog ID is not
unescaped. -/
def unmarshalReference (b : Bytes) : Outcome (Str × Int) :=
  match Element.extractElements b with
  | .ok [d, n] => (Outcome.ofOption (atoi n)).map' fun n => (Charset.toUTF8 d, n)
  | .ok _ => .err
  | .err => .err
  | .panic => .panic

/-- Last field of a generated unmarshaler: everything from element `i` on, joined by
`+`. -/
def lastField {α : Type} (es : List Bytes) (i : Nat) (f : Bytes → Outcome α) : Outcome (Option α) :=
  match es[i]? with
  | none => .ok none
  | some b => if b = [] then .ok none else (f (join 43 (es.drop i))).map' some

/-- /repo/segment/message_header_unmarshaler.go:21-74. -/
def unmarshalMsgHeader (b : Bytes) : Outcome ReadHeader :=
  (Segment.extractElements b).bind fun es =>
    match es with
    | [] => .err
    | hb :: _ =>
      (unmarshalHeader hb).bind fun h =>
        (field es 1 unmarshalNumber).bind fun size =>
          (field es 2 unmarshalNumber).bind fun ver =>
            (field es 3 fun x => .ok (unmarshalText x)).bind fun dia =>
              (field es 4 unmarshalNumber).bind fun num =>
                (lastField es 5 unmarshalReference).bind fun ref =>
                  .ok ⟨h, size, ver, dia, num, ref⟩

/-- /repo/segment/encrypted_data_unmarshaler.go:21-46: header and data. -/
def unmarshalEncryptedData (b : Bytes) : Outcome (Header × Option Bytes) :=
  (Segment.extractElements b).bind fun es =>
    match es with
    | [] => .err
    | hb :: _ =>
      (unmarshalHeader hb).bind fun h =>
        (lastField es 1 unmarshalBinary).bind fun d => .ok (h, d)

end Verif.Message

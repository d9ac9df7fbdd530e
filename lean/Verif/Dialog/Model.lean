import Verif.Transport.Model
import Verif.Segment.Requests

/-
Model of dialog/dialog.go and dialog/pin_tan_dialog.go with the messages of
message/dialog.go and message/sync.go and their segments.
-/

namespace Verif.Dialog

open GoLib Element Segment Message Domain Transport

/-! ## Segments the dialog sends -/

/-- /repo/domain/bank_id.go:4-7 `BankID`. -/
structure BankId where
  country : Int
  id : Str
  deriving DecidableEq, Repr

/-- /repo/segment/identification.go:10-25 `NewIdentificationSegment` with its elements. -/
def identificationSeg (bank : BankId) (clientId clientSystemId : Str) (systemIdRequired : Bool) : Seg :=
  newSegment 3 c!"HKIDN" 2
    [some (bankIdentification bank.country bank.id), some (.identification clientId 30),
     some (.identification clientSystemId 30), some (.number (if systemIdRequired then 1 else 0) 1)]

/-- /repo/segment/dialog.go:56-72 `NewProcessingPreparationSegmentV3` with :9-10 and
/repo/hbci.go:6. -/
def preparationSeg (bpdVersion updVersion language : Int) (productName productVersion : Str) : Seg :=
  newSegment 4 c!"HKVVB" 3
    [some (.number bpdVersion 3), some (.number updVersion 3), some (.number language 3),
     some (.alnum (if productName = [] then c!"5A624F86A785F4024DD914404" else productName) 25),
     some (.alnum (if productVersion = [] then c!"0.3.2" else productVersion) 5)]

/-- /repo/segment/sync.go:20-30 `NewSynchronisationSegmentV2` and :64-74
`NewSynchronisationSegmentV3` for acquiring a client system ID, chosen by
/repo/segment/hbci220.go and /repo/segment/fints300.go. -/
def synchronisationSeg : Version → Seg
  | .hbci220 => newSegment 5 c!"HKSYN" 2 [some (.number 0 1)]
  | .fints300 => newSegment 5 c!"HKSYN" 3 [some (.code c!"0" 1 [c!"0", c!"1", c!"2"])]

/-- /repo/segment/dialog.go:12-18 `NewDialogEndSegment`. -/
def dialogEndSeg (dialogId : Str) : Seg := newSegment 3 c!"HKEND" 1 [some (.identification dialogId 30)]

/-! ## What the bank's segments mean to the dialog -/

/-- /repo/domain/bank_parameter_data.go:5-14 `BankParameterData`, without the PIN/TAN
transactions. -/
structure BankParameters where
  version : Int
  bankId : BankId
  bankName : Str
  maxTransactions : Int
  maxMessageSize : Int
  minTimeout : Int
  maxTimeout : Int
  deriving DecidableEq, Repr

/-- /repo/domain/user_parameter_data.go:4-10 `UserParameterData`. -/
structure UserParameters where
  userId : Str
  version : Int
  usage : Int
  userName : Str
  additions : Str
  deriving DecidableEq, Repr

/-- How the dialog looks at a decoded segment: the type assertion and the methods it
calls.  Each may panic; a parameter of the model, as the decoders are. -/
structure Views (σ α : Type) where
  /-- `.(segment.SynchronisationResponse)` and `ClientSystemID()` -/
  clientSystemId : σ → Outcome Str
  /-- `.(segment.CommonBankParameter)`, an error if it is something else, and
  `BankParameterData()` -/
  bankParameters : σ → Outcome BankParameters
  /-- `.(segment.PinTanBusinessTransactionParams)` and `PinTanBusinessTransactions()` -/
  pinTan : σ → Outcome (List (Str × Bool))
  /-- `.(segment.CommonUserParameterData)` and `UserParameterData()` -/
  userParameters : σ → Outcome UserParameters
  /-- `.(segment.AccountInformation)` and `Account()` -/
  account : σ → Outcome α
  /-- `.(*segment.BankAnnouncementSegment)` with subject and body -/
  announcement : σ → Outcome Unit
  /-- `.(*segment.TanBankParameterV6)`: security functions and the names of the process
  parameters, `none` for a nil name -/
  tanFunctions : σ → Outcome (List (Str × Option Str))
  /-- `Header().Version.Val()` -/
  version : σ → Int

/-- A view of a decoded segment.  An acknowledgement never has one of the IDs the dialog
asks for; every assertion would panic. -/
def viewOf {σ β : Type} (f : σ → Outcome β) : Decoded σ → Outcome β
  | .ack _ => .panic
  | .other s => f s

/-- `FindSegment` of /repo/message/decryption.go:80-82. -/
def find {σ : Type} (m : Decrypted σ) (id : Str) : Option (Decoded σ) := (m.segments id).head?

/-! ## The dialog -/

/-- /repo/dialog/bank_parameter_data.go:8-16 `BankParameterData`; the map of PIN/TAN
transactions is a function, `none` for nil. -/
structure BankParameterData (σ : Type) where
  parameters : BankParameters
  pinTan : Option (Str → Option Bool)
  segmentParameters : List ((Str × Int) × Option (Decoded σ))

/-- /repo/dialog/dialog.go:63-83 `dialog` with the PIN/TAN providers.  The transport is
part of the environment. -/
structure Dialog (σ α : Type) where
  bankId : BankId
  userId : Str
  clientId : Str
  clientSystemId : Str
  language : Int
  userParameters : UserParameters
  accounts : List α
  messageCount : Int
  dialogId : Str
  securityFn : Str
  sig : SignatureProvider
  crypto : CryptoProvider
  bankParameterData : BankParameterData σ
  version : Version
  productName : Str
  productVersion : Str
  supportedSegments : List (Str × Int)

/-- What one exchange finds outside the program: the transport, the clock when signing
and when encrypting, and the order in which a map is traversed. -/
structure Env where
  transport : Transport
  signTime : Time.Civil
  encryptTime : Time.Civil
  mapOrder : Nat

/-- Everything the model is parametric in.  `controlRef` is
/repo/message/signature.go:37-47 `generateControlReference`. -/
structure World (σ α : Type) where
  decoders : Decoders σ
  views : Views σ α
  controlRef : KeyName → Str
  env : Nat → Env

/-- What a message is for; only for talking about the log of sent messages. -/
inductive Kind where
  | sync
  | init
  | job
  | end_
  deriving DecidableEq, Repr

/-- A message handed to the transport: the message before encryption, the message that
was marshalled, its bytes, and what became of the answer. -/
structure Sent (σ : Type) where
  kind : Kind
  plain : BasicMessage
  wire : BasicMessage
  bytes : Bytes
  reply : Outcome (Decrypted σ)

/-- The state of the program: the dialog, the number of messages begun so far, and all
messages handed to the transport, in order. -/
structure St (σ α : Type) where
  d : Dialog σ α
  step : Nat
  sent : List (Sent σ)

/-- A piece of program: it may fail or panic, and leaves a state in any case. -/
def M (σ α β : Type) := St σ α → Outcome β × St σ α

namespace M

variable {σ α β γ : Type}

/-- Sequencing. -/
def bind (m : M σ α β) (f : β → M σ α γ) : M σ α γ := fun s =>
  match m s with
  | (.ok b, s') => f b s'
  | (.err, s') => (.err, s')
  | (.panic, s') => (.panic, s')

/-- A computation without effect on the state. -/
def lift (o : Outcome β) : M σ α β := fun s => (o, s)

/-- Assignment to the dialog's fields. -/
def modify (f : Dialog σ α → Dialog σ α) : M σ α Unit := fun s => (.ok (), { s with d := f s.d })

/-- `defer func() { logErr(...) }()`: `last` runs whatever became of `m`, even if it
panicked; an error of `last` is only logged, a panic is not caught. -/
def deferred (m : M σ α β) (last : M σ α Unit) : M σ α β := fun s =>
  let r := m s
  let q := last r.2
  (match q.1 with
    | .panic => .panic
    | _ => r.1, q.2)

end M

variable {σ α : Type}

/-! ## Messages -/

/-- /repo/dialog/dialog.go:448-454 `newBasicMessage` with `nextMessageNumber`; the
message to be sent is given by its segments and its version. -/
def newMessage (segs : List (Option Seg)) (version : Version) : M σ α BasicMessage := fun s =>
  let n := s.d.messageCount + 1
  (.ok { header := newMsgHeader (-1) s.d.version.number s.d.dialogId n, end_ := ⟨-1, n⟩, sigBegin := none,
         sigEnd := none, content := some segs, version := version, cache := [] },
   { s with d := { s.d with messageCount := n }, step := s.step + 1 })

/-- `Sign(d.signatureProvider)`. -/
def sign (w : World σ α) (m : BasicMessage) : M σ α BasicMessage := fun s =>
  (m.sign s.d.sig (w.env s.step).signTime, s)

/-- /repo/dialog/dialog.go:582-631 `request`. -/
def request (w : World σ α) (kind : Kind) (plain wire : BasicMessage) : M σ α (Decrypted σ) := fun s =>
  match wire.marshal with
  | .ok (b, _) =>
    let reply := receive w.decoders ((w.env s.step).transport b)
    (reply, { s with sent := s.sent ++ [⟨kind, plain, wire, b, reply⟩] })
  | .err => (.err, s)
  | .panic => (.panic, s)

/-- `Encrypt(d.cryptoProvider)` and `request`. -/
def requestEncrypted (w : World σ α) (kind : Kind) (m : BasicMessage) : M σ α (Decrypted σ) := fun s =>
  match m.encrypt s.d.crypto (w.env s.step).encryptTime with
  | .ok e => request w kind m e.msg s
  | .err => (.err, s)
  | .panic => (.panic, s)

/-- A new message, signed, encrypted and sent. -/
def exchange (w : World σ α) (kind : Kind) (segs : List (Option Seg)) (version : Version) : M σ α (Decrypted σ) :=
  (newMessage segs version).bind fun m => (sign w m).bind fun m => requestEncrypted w kind m

/-- A new message, numbered and sent as it is. -/
def exchangePlain (w : World σ α) (kind : Kind) (segs : List (Option Seg)) (version : Version) : M σ α (Decrypted σ) :=
  (newMessage segs version).bind fun m => (M.lift m.setPositions).bind fun m => request w kind m m

/-! ## Reading the answers -/

/-- The loops over the acknowledgements: an error if one is an error. -/
def checkAcks (m : Decrypted σ) : Outcome Unit :=
  if m.acknowledgements.any (·.isError) then .err else .ok ()

/-- `d.dialogID = messageHeader.DialogID.Val()`; a nil ID panics. -/
def takeDialogId (m : Decrypted σ) : M σ α Unit := fun s =>
  match m.header.dialogId with
  | none => (.panic, s)
  | some i => (.ok (), { s with d := { s.d with dialogId := i } })

/-- /repo/dialog/dialog.go:97-101 `SetClientSystemID`. -/
def setClientSystemId (id : Str) (d : Dialog σ α) : Dialog σ α :=
  { d with clientSystemId := id, sig := { d.sig with clientSystemId := id },
           crypto := { d.crypto with clientSystemId := id } }

/-- /repo/dialog/dialog.go:103-107 `SetSecurityFunction`. -/
def setSecurityFunction (fn : Str) (d : Dialog σ α) : Dialog σ α :=
  { d with securityFn := fn, sig := { d.sig with securityFn := fn }, crypto := { d.crypto with securityFn := fn } }

/-- The acknowledgement 3920 looked for in /repo/dialog/dialog.go:482-491 and :499-504. -/
def securityAck (m : Decrypted σ) : Option Acknowledgement := m.acknowledgements.find? fun a => a.code == 3920

/-- /repo/dialog/dialog.go:513-518: the last process parameter of a security function,
as the map keeps it. -/
def processName (available : List (Str × Option Str)) (fn : Str) : Option (Option Str) :=
  (available.reverse.find? fun p => p.1 == fn).map (·.2)

/-- The loop of /repo/dialog/dialog.go:519-523: the keys of the map, in the order of the
parameters.  A nil name panics. -/
def commonFunctions (available : List (Str × Option Str)) : List Str → Outcome (List Str)
  | [] => .ok []
  | fn :: fns =>
    match processName available fn with
    | none => commonFunctions available fns
    | some none => .panic
    | some (some _) => (commonFunctions available fns).map' fun r => fn :: r

/-- /repo/dialog/dialog.go:496-528 `supportedSecurityFunctionsFromBankMessage`; an empty
result stands for `false`. -/
def supportedFunctions (w : World σ α) (m : Decrypted σ) : Outcome (List Str) :=
  match securityAck m with
  | none => .ok []
  | some a =>
    if a.params = [] then .ok []
    else
      match find m c!"HITANS" with
      | none => .ok []
      | some s => (viewOf w.views.tanFunctions s).bind fun fs => commonFunctions fs a.params

/-- /repo/dialog/dialog.go:456-481 `updateSecurityFunctionIfNeeded` with :482-494.
Which function is taken depends on the order of the map. -/
def updateSecurityFunction (w : World σ α) (m : Decrypted σ) : M σ α Unit := fun s =>
  if (find m c!"HITANS").isNone || (securityAck m).isNone then (.ok (), s)
  else
    match supportedFunctions w m with
    | .err => (.err, s)
    | .panic => (.panic, s)
    | .ok fs =>
      match fs[(w.env s.step).mapOrder % fs.length]? with
      | none => (.err, s)
      | some fn => (.ok (), if s.d.securityFn = fn then s else { s with d := setSecurityFunction fn s.d })

/-- The map of /repo/dialog/dialog.go:547-550: later entries win. -/
def pinTanMap (ts : List (Str × Bool)) : Str → Option Bool := fun id =>
  (ts.reverse.find? fun t => t.1 == id).map (·.2)

/-- /repo/dialog/dialog.go:553-562: the parameters of one supported segment. -/
def segmentParameter (w : World σ α) (m : Decrypted σ) (s : Str × Int) : (Str × Int) × Option (Decoded σ) :=
  (s, (find m s.1).filter fun x => match x with
    | .ack a => a.header.version == s.2
    | .other y => w.views.version y == s.2)

/-- /repo/dialog/dialog.go:544-552: the PIN/TAN transactions. -/
def parsePinTan (w : World σ α) (m : Decrypted σ) : M σ α Unit :=
  match find m c!"HIPINS" with
  | none => M.lift (.ok ())
  | some p => (M.lift (viewOf w.views.pinTan p)).bind fun ts =>
      M.modify fun d => { d with bankParameterData := { d.bankParameterData with pinTan := some (pinTanMap ts) } }

/-- /repo/dialog/dialog.go:530-564 `parseBankParameterData`.  Simplification: the code checks the
type of the HIBPA segment before it stores the supported segments; here check and reading are one
view, taken afterwards.  With the decoders of the program the check never fails. -/
def parseBankParameterData (w : World σ α) (m : Decrypted σ) : M σ α Unit :=
  match find m c!"HIBPA" with
  | none => M.lift (.ok ())
  | some b =>
    (M.lift m.supportedSegments).bind fun ss =>
      (M.modify fun d => { d with supportedSegments := ss }).bind fun _ =>
        (M.lift (viewOf w.views.bankParameters b)).bind fun p =>
          (M.modify fun d => { d with bankParameterData := ⟨p, none, List.replicate ss.length (([], 0), none)⟩ }).bind fun _ =>
            (parsePinTan w m).bind fun _ =>
              M.modify fun d =>
                { d with bankParameterData := { d.bankParameterData with segmentParameters := ss.map (segmentParameter w m) } }

/-- The loop of /repo/dialog/dialog.go:575-578. -/
def parseAccounts (w : World σ α) : List (Decoded σ) → M σ α Unit
  | [] => M.lift (.ok ())
  | x :: xs => (M.lift (viewOf w.views.account x)).bind fun a =>
      (M.modify fun d => { d with accounts := d.accounts ++ [a] }).bind fun _ => parseAccounts w xs

/-- /repo/dialog/dialog.go:567-572: HIUPA. -/
def parseUser (w : World σ α) (m : Decrypted σ) : M σ α Unit :=
  match find m c!"HIUPA" with
  | none => M.lift (.ok ())
  | some u => (M.lift (viewOf w.views.userParameters u)).bind fun p =>
      M.modify fun d => { d with userParameters := p, clientId := p.userId }

/-- /repo/dialog/dialog.go:566-580 `parseUserParameterData`. -/
def parseUserParameterData (w : World σ α) (m : Decrypted σ) : M σ α Unit :=
  (parseUser w m).bind fun _ => parseAccounts w (m.segments c!"HIUPD")

/-- /repo/dialog/dialog.go:285-289 and :381-385: the bank's announcement is logged. -/
def announcement (w : World σ α) (m : Decrypted σ) : Outcome Unit :=
  match find m c!"HIKIM" with
  | none => .ok ()
  | some a => viewOf w.views.announcement a

/-- /repo/dialog/dialog.go:208-214: the assigned client system ID. -/
def takeClientSystemId (w : World σ α) (m : Decrypted σ) : M σ α Unit :=
  match find m c!"HISYN" with
  | none => M.lift .err
  | some x => (M.lift (viewOf w.views.clientSystemId x)).bind fun id => M.modify (setClientSystemId id)

/-! ## The dialog's methods -/

/-- /repo/dialog/dialog.go:413-442 `end`. -/
def end_ (w : World σ α) : M σ α Unit := fun s =>
  ((exchange w .end_ [some (dialogEndSeg s.d.dialogId)] s.d.version).bind fun m => M.lift (checkAcks m)) s

/-- The segments of the synchronisation message, /repo/message/sync.go:35-45 with
/repo/dialog/dialog.go:158-164. -/
def syncSegments (d : Dialog σ α) : List (Option Seg) :=
  [some (identificationSeg d.bankId d.clientId c!"0" true), some (preparationSeg 0 0 1 d.productName d.productVersion),
   some (tanRequestV6 c!"HKIDN"), none, none, none, some (synchronisationSeg d.version)]

/-- /repo/dialog/dialog.go:165-173: the synchronisation message is signed, the crypto
provider is reset, and the message is sent. -/
def syncRequest (w : World σ α) : M σ α (Decrypted σ) := fun s =>
  ((newMessage (syncSegments s.d) s.d.version).bind fun m => (sign w m).bind fun m =>
    (M.modify fun d => { d with crypto := { d.crypto with clientSystemId := c!"0" } }).bind fun _ =>
      requestEncrypted w .sync m) s

/-- /repo/dialog/dialog.go:157-230 `SyncClientSystemID`. -/
def syncClientSystemId (w : World σ α) : M σ α Str :=
  (syncRequest w).bind fun m =>
    (takeDialogId m).bind fun _ =>
      (M.lift (checkAcks m)).bind fun _ =>
        (updateSecurityFunction w m).bind fun _ =>
          (takeClientSystemId w m).bind fun _ =>
            (parseBankParameterData w m).bind fun _ =>
              (parseUserParameterData w m).bind fun _ =>
                (end_ w).bind fun _ => fun s => (.ok s.d.clientSystemId, s)

/-- The segments of the initialisation message, /repo/message/dialog.go:32-41 with
/repo/dialog/dialog.go:347-352. -/
def initSegments (d : Dialog σ α) : List (Option Seg) :=
  [some (identificationSeg d.bankId d.clientId d.clientSystemId true),
   some (preparationSeg d.bankParameterData.parameters.version d.userParameters.version d.language d.productName d.productVersion),
   some (tanRequestV6 c!"HKIDN"), none, none, none]

/-- What `init` makes of the answer: /repo/dialog/dialog.go:366-410. -/
def opened (w : World σ α) (m : Decrypted σ) : M σ α Unit :=
  (takeDialogId m).bind fun _ =>
    (parseBankParameterData w m).bind fun _ =>
      (parseUserParameterData w m).bind fun _ =>
        (M.lift (announcement w m)).bind fun _ =>
          (M.lift (checkAcks m)).bind fun _ => updateSecurityFunction w m

/-- /repo/dialog/dialog.go:345-410: `init` once there is a client system ID. -/
def open_ (w : World σ α) : M σ α Unit :=
  (M.modify fun d => { d with dialogId := c!"0", messageCount := 0 }).bind fun _ => fun s =>
    ((exchange w .init (initSegments s.d) s.d.version).bind fun m => opened w m) s

/-- /repo/dialog/dialog.go:338-344: get a client system ID if there is none. -/
def ensureClientSystemId (w : World σ α) : M σ α Unit := fun s =>
  if s.d.clientSystemId = c!"0" then
    ((syncClientSystemId w).bind fun id => M.modify fun d => { d with clientSystemId := id }) s
  else (.ok (), s)

/-- /repo/dialog/dialog.go:337-411 `init`. -/
def init (w : World σ α) : M σ α Unit := (ensureClientSystemId w).bind fun _ => open_ w

/-- A message the caller wants to be sent: /repo/message/message.go `HBCIMessage`.
Simplification: not nil. -/
structure Job where
  segments : List (Option Seg)
  version : Version

/-- The job itself: /repo/dialog/dialog.go:115-142. -/
def job (w : World σ α) (j : Job) : M σ α (Decrypted σ) :=
  (exchange w .job j.segments j.version).bind fun m => (M.lift (checkAcks m)).bind fun _ => M.lift (.ok m)

/-- /repo/dialog/dialog.go:109-142 `SendMessage`. -/
def sendMessage (w : World σ α) (j : Job) : M σ α (Decrypted σ) :=
  (init w).bind fun _ => M.deferred (job w j) (end_ w)

/-- /repo/dialog/dialog.go:144-155 `SyncUserParameterData`. -/
def syncUserParameterData (w : World σ α) : M σ α Unit :=
  (init w).bind fun _ => M.deferred (M.lift (.ok ())) (end_ w)

/-- The segments of an anonymous initialisation, /repo/dialog/dialog.go:264-268. -/
def anonymousSegments (d : Dialog σ α) : List (Option Seg) :=
  [some (identificationSeg d.bankId c!"9999999999" c!"0" false),
   some (preparationSeg d.bankParameterData.parameters.version d.userParameters.version d.language d.productName d.productVersion),
   none, none, none, none]

/-- What `anonymousInit` makes of the answer: /repo/dialog/dialog.go:275-306. -/
def anonymousOpened (w : World σ α) (m : Decrypted σ) : M σ α Unit :=
  (takeDialogId m).bind fun _ =>
    (parseBankParameterData w m).bind fun _ =>
      (parseUserParameterData w m).bind fun _ =>
        (M.lift (announcement w m)).bind fun _ => M.lift (checkAcks m)

/-- /repo/dialog/dialog.go:261-311 `anonymousInit`. -/
def anonymousInit (w : World σ α) : M σ α Unit :=
  (M.modify fun d => { d with dialogId := c!"0", messageCount := 0 }).bind fun _ => fun s =>
    ((exchangePlain w .init (anonymousSegments s.d) s.d.version).bind fun m => anonymousOpened w m) s

/-- /repo/dialog/dialog.go:313-335 `anonymousEnd`. -/
def anonymousEnd (w : World σ α) : M σ α Unit := fun s =>
  ((exchangePlain w .end_ [some (dialogEndSeg s.d.dialogId)] s.d.version).bind fun m => M.lift (checkAcks m)) s

/-- The job of /repo/dialog/dialog.go:235-258. -/
def anonymousJob (w : World σ α) (j : Job) : M σ α (Decrypted σ) :=
  (exchangePlain w .job j.segments j.version).bind fun m => (M.lift (checkAcks m)).bind fun _ => M.lift (.ok m)

/-- /repo/dialog/dialog.go:232-259 `SendAnonymousMessage`. -/
def sendAnonymousMessage (w : World σ α) (j : Job) : M σ α (Decrypted σ) :=
  (anonymousInit w).bind fun _ => M.deferred (anonymousJob w j) (anonymousEnd w)

/-! ## PIN/TAN dialogs -/

/-- /repo/domain/key.go:39-47 `NewPinTanKeyName`. -/
def pinTanKeyName (bank : BankId) (userId keyType : Str) : KeyName := ⟨bank.country, bank.id, userId, keyType, 0, 0⟩

/-- /repo/message/signature.go:50-58 `NewPinTanSignatureProvider` with
/repo/dialog/pin_tan_dialog.go:29-30 or :64-65. -/
def signatureProvider (w : World σ α) (bank : BankId) (userId pin clientSystemId : Str) : SignatureProvider :=
  ⟨⟨pin, pinTanKeyName bank userId c!"S"⟩, clientSystemId, c!"999", w.controlRef (pinTanKeyName bank userId c!"S")⟩

/-- /repo/message/crypto.go:21-27 `NewPinTanCryptoProvider` with
/repo/dialog/pin_tan_dialog.go:31-32 or :66-67. -/
def cryptoProvider (bank : BankId) (userId pin clientSystemId : Str) : CryptoProvider :=
  ⟨⟨pin, pinTanKeyName bank userId c!"V"⟩, clientSystemId, c!"999"⟩

/-- /repo/dialog/pin_tan_dialog.go:27-55 `NewPinTanDialog` with /repo/dialog/dialog.go:36-61
`newDialog`. -/
def newPinTanDialog (w : World σ α) (bank : BankId) (userId : Str) (version : Version) (productName productVersion : Str) :
    Dialog σ α :=
  { bankId := bank, userId := userId, clientId := userId, clientSystemId := c!"0", language := 1
    userParameters := ⟨[], 0, 0, [], []⟩, accounts := [], messageCount := 0, dialogId := c!"0", securityFn := []
    sig := signatureProvider w bank userId [] c!"0", crypto := cryptoProvider bank userId [] c!"0"
    bankParameterData := ⟨⟨0, ⟨0, []⟩, [], 0, 0, 0, 0⟩, none, []⟩
    version := version, productName := productName, productVersion := productVersion, supportedSegments := [] }

/-- /repo/dialog/pin_tan_dialog.go:63-68 `SetPin`. -/
def setPin (w : World σ α) (pin : Str) : M σ α Unit :=
  M.modify fun d => { d with sig := signatureProvider w d.bankId d.userId pin d.clientSystemId
                             crypto := cryptoProvider d.bankId d.userId pin d.clientSystemId }

/-! ## Histories -/

/-- A call of the dialog's API. -/
inductive Call where
  | send (j : Job)
  | sendAnonymous (j : Job)
  | sync
  | syncUser
  | setPin (pin : Str)

/-- Whether a call returned, and with what: nothing but success or failure. -/
def void {β : Type} (r : Outcome β × St σ α) : Outcome Unit × St σ α := (r.1.map' fun _ => (), r.2)

/-- One call. -/
def run (w : World σ α) (c : Call) (s : St σ α) : Outcome Unit × St σ α :=
  match c with
  | .send j => void (sendMessage w j s)
  | .sendAnonymous j => void (sendAnonymousMessage w j s)
  | .sync => void (syncClientSystemId w s)
  | .syncUser => void (syncUserParameterData w s)
  | .setPin p => void (setPin w p s)

/-- The state after a sequence of calls, whatever became of each of them; the caller
may have recovered from panics. -/
def runAll (w : World σ α) : List Call → St σ α → St σ α
  | [], s => s
  | c :: cs, s => runAll w cs (run w c s).2

end Verif.Dialog

import Verif.Message.Model
import Verif.Domain.Model

/-
Model of message/unmarshaler.go, message/decryption.go,
segment/acknowledgement.go and element/acknowledgement.go: how the bank's messages
are read.
-/

namespace Verif.Message

open GoLib Element Segment Domain

/-! ## Acknowledgements -/

/-- The fields of an `AcknowledgementDataElement` that come from the wire,
/repo/element/acknowledgement.go:32-41. -/
structure AckEntry where
  code : Int
  reference : Str
  text : Str
  params : List Str
  deriving DecidableEq, Repr

/-- /repo/element/acknowledgement.go:98-123 `AcknowledgementDataElement.UnmarshalHBCI`
followed by the getters of :66-76.  Nothing is unescaped. -/
def unmarshalAck (value : Bytes) : Outcome AckEntry :=
  (Element.extractElements value).bind fun chunks =>
    match chunks with
    | c :: r :: t :: ps =>
      (Outcome.ofOption (atoi c)).map' fun code =>
        ⟨code, Charset.toUTF8 r, Charset.toUTF8 t, ps.map Charset.toUTF8⟩
    | _ => .err

/-- The loop of /repo/segment/acknowledgement.go:36-47 and :96-105. -/
def unmarshalAcks : List Bytes → Outcome (List AckEntry)
  | [] => .ok []
  | e :: es => (unmarshalAck e).bind fun a => (unmarshalAcks es).map' fun as => a :: as

/-- `MessageAcknowledgement` and `SegmentAcknowledgement` of
/repo/segment/acknowledgement.go:10-14 and :75-79, which differ in `type` only. -/
structure AckSegment where
  type : AckType
  header : Header
  entries : List AckEntry
  referencingMessage : MessageReference
  deriving DecidableEq, Repr

/-- /repo/segment/acknowledgement.go:21-51 and :86-109 `UnmarshalHBCI` on a fresh
receiver. -/
def unmarshalAckSegment (type : AckType) (b : Bytes) : Outcome AckSegment :=
  (Segment.extractElements b).bind fun es =>
    match es with
    | [] => .err
    | hb :: es =>
      (unmarshalHeader hb).bind fun h =>
        (unmarshalAcks es).map' fun as => ⟨type, h, as, ⟨[], 0⟩⟩

/-- The segment number the acknowledgements of a segment refer to: message
acknowledgements skip -1 (/repo/segment/acknowledgement.go:42-44), segment
acknowledgements do not (:102). -/
def AckSegment.segmentNumber (s : AckSegment) : Int :=
  match s.type with
  | .message => if s.header.referencing = -1 then 0 else s.header.referencing
  | .segment => s.header.referencing

/-- /repo/segment/acknowledgement.go:57-66 and :115-124 `Acknowledgements`. -/
def AckSegment.acknowledgements (s : AckSegment) : List Acknowledgement :=
  s.entries.map fun a =>
    { type := s.type, code := a.code, referenceDataElement := a.reference, text := a.text, params := a.params,
      referencingMessage := s.referencingMessage, referencingSegmentNumber := s.segmentNumber }

/-- /repo/segment/acknowledgement.go:53-55 `SetReferencingMessage`. -/
def AckSegment.setReferencingMessage (s : AckSegment) (r : MessageReference) : AckSegment :=
  { s with referencingMessage := r }

/-! ## Unmarshaler -/

/-- A decoded segment: an acknowledgement or one of the other known kinds, whose
values have type `σ`. -/
inductive Decoded (σ : Type) where
  | ack (a : AckSegment)
  | other (s : σ)

/-- Decoders of the other entries of `KnownSegments`; a parameter of the model. -/
abbrev Decoders (σ : Type) := Str → Int → Option (Bytes → Outcome σ)

/-- `KnownSegments.IsUnmarshaler` and `UnmarshalerForSegment`
(/repo/segment/segment_index.go:18-44): the acknowledgements are registered in
:65-66 for version 2 only, the others in the generated files. -/
def decoderFor {σ : Type} (other : Decoders σ) (id : Str) (version : Int) : Option (Bytes → Outcome (Decoded σ)) :=
  if id = c!"HIRMG" then
    if version = 2 then some fun b => (unmarshalAckSegment .message b).map' .ack else none
  else if id = c!"HIRMS" then
    if version = 2 then some fun b => (unmarshalAckSegment .segment b).map' .ack else none
  else (other id version).map fun f b => (f b).map' .other

/-- /repo/message/unmarshaler.go:144-155 `extractSegmentHeader`: `elements[0]` panics
when there is no element. -/
def extractSegmentHeader (b : Bytes) : Outcome Header :=
  (Segment.extractElements b).bind fun es =>
    match es with
    | [] => .panic
    | hb :: _ => unmarshalHeader hb

/-- The map of /repo/message/unmarshaler.go:24; a missing key has no segments. -/
abbrev SegmentMap (σ : Type) := Str → List (Decoded σ)

/-- One turn of the loop of /repo/message/unmarshaler.go:43-65. -/
def readSegment {σ : Type} (other : Decoders σ) (m : SegmentMap σ) (b : Bytes) : Outcome (SegmentMap σ) :=
  (extractSegmentHeader b).bind fun h =>
    match decoderFor other h.id h.version with
    | none => .ok m
    | some f => (f b).map' fun d => fun k => if k = h.id then m k ++ [d] else m k

/-- The loop of /repo/message/unmarshaler.go:43-65. -/
def readSegments {σ : Type} (other : Decoders σ) : List Bytes → SegmentMap σ → Outcome (SegmentMap σ)
  | [], m => .ok m
  | b :: bs, m => (readSegment other m b).bind fun m => readSegments other bs m

/-- /repo/message/unmarshaler.go:11-17 and :38-67: a new `Unmarshaler` after
`Unmarshal`: its segments by ID and its segment extractor. -/
def unmarshalMessage {σ : Type} (other : Decoders σ) (raw : Bytes) : Outcome (SegmentMap σ × Extractor) :=
  let r := (newExtractor raw).extract
  r.2.bind fun ss => (readSegments other ss fun _ => []).map' fun m => (m, r.1)

/-! ## Decrypted messages -/

/-- /repo/message/decryption.go:47-53 `decryptedMessage`. -/
structure Decrypted (σ : Type) where
  raw : Bytes
  header : ReadHeader
  acknowledgements : List Acknowledgement
  segments : SegmentMap σ
  extractor : Extractor
  version : Version

/-- /repo/segment/message_header.go:43-49 `ReferencingMessage`. -/
def ReadHeader.referencingMessage (h : ReadHeader) : MessageReference :=
  match h.ref with
  | none => ⟨[], 0⟩
  | some r => ⟨r.1, r.2⟩

/-- /repo/segment/hbci_version.go:11-14 `SupportedHBCIVersions`. -/
def supportedVersion (n : Int) : Option Version :=
  if n = 220 then some .hbci220 else if n = 300 then some .fints300 else none

/-- /repo/message/decryption.go:19-23: the first HIRMG. -/
def messageAcks {σ : Type} (m : SegmentMap σ) (r : MessageReference) : List Acknowledgement :=
  match (m c!"HIRMG").head? with
  | some (.ack a) => (a.setReferencingMessage r).acknowledgements
  | _ => []

/-- The loop of /repo/message/decryption.go:24-30. -/
def segmentAcks {σ : Type} : List (Decoded σ) → Outcome (List Acknowledgement)
  | [] => .ok []
  | .ack a :: ds => (segmentAcks ds).map' fun r => a.acknowledgements ++ r
  | .other _ :: _ => .panic

/-- /repo/message/decryption.go:12-44 `NewDecryptedMessage`.  `header.HBCIVersion.Val()`
of an absent version dereferences nil. -/
def newDecrypted {σ : Type} (other : Decoders σ) (header : ReadHeader) (raw : Bytes) : Outcome (Decrypted σ) :=
  (unmarshalMessage other raw).bind fun u =>
    (segmentAcks (u.1 c!"HIRMS")).bind fun sa =>
      match header.hbciVersion with
      | none => .panic
      | some n =>
        match supportedVersion n with
        | none => .err
        | some v => .ok ⟨raw, header, messageAcks u.1 header.referencingMessage ++ sa, u.1, u.2, v⟩

/-- /repo/message/decryption.go:88-103 `SegmentPosition`; the ID is given in bytes. -/
def Decrypted.segmentPosition {σ : Type} (d : Decrypted σ) (id : Bytes) : Outcome Int :=
  match d.extractor.findSegment id with
  | none => .ok (-1)
  | some s =>
    if s = [] then .ok (-1)
    else
      match extractSegmentHeader s with
      | .ok h => .ok h.position
      | .err => .ok (-1)
      | .panic => .panic

/-- Length of a Go string in bytes. -/
def utf8Length (s : Str) : Nat := (s.map fun c => c.utf8Size).sum

/-- The loop of /repo/message/decryption.go:117-130 `SupportedSegments`. -/
def supportedLoop : List Bytes → Outcome (List (Str × Int))
  | [] => .ok []
  | b :: bs =>
    match extractSegmentHeader b with
    | .panic => .panic
    | .err => supportedLoop bs
    | .ok h =>
      if utf8Length h.id ≤ 5 then supportedLoop bs
      else (supportedLoop bs).map' fun r => (h.id, h.version) :: r

/-- /repo/message/decryption.go:117-130 `SupportedSegments`. -/
def Decrypted.supportedSegments {σ : Type} (d : Decrypted σ) : Outcome (List (Str × Int)) :=
  supportedLoop d.extractor.segments

end Verif.Message

import Verif.Message.Reader
import Verif.Message.Reference

/-
Model of the functions of message/unmarshaler.go that keep or change the state of an `Unmarshaler`.
-/

namespace Verif.Message

open GoLib Element Segment

/-- /repo/message/unmarshaler.go:20-24 `Unmarshaler`; the raw message is kept by the extractor. -/
structure Unmarshaler (σ : Type) where
  extractor : Extractor
  segments : SegmentMap σ

/-- /repo/message/unmarshaler.go:11-17 `NewUnmarshaler`. -/
def newUnmarshaler {σ : Type} (raw : Bytes) : Unmarshaler σ := ⟨newExtractor raw, fun _ => []⟩

/-- /repo/message/unmarshaler.go:28-35 `CanUnmarshal`. -/
def canUnmarshal {σ : Type} (other : Decoders σ) (id : Str) (version : Int) : Bool := (decoderFor other id version).isSome

/-- The loop of /repo/message/unmarshaler.go:43-65: the map is changed in place, so what was read before
an error stays. -/
def readLoop {σ : Type} (other : Decoders σ) : List Bytes → SegmentMap σ → SegmentMap σ × Outcome Unit
  | [], m => (m, .ok ())
  | b :: bs, m =>
    match readSegment other m b with
    | .ok m' => readLoop other bs m'
    | .err => (m, .err)
    | .panic => (m, .panic)

/-- /repo/message/unmarshaler.go:38-67 `Unmarshal`, in any state. -/
def Unmarshaler.unmarshal {σ : Type} (other : Decoders σ) (u : Unmarshaler σ) : Unmarshaler σ × Outcome Unit :=
  let r := u.extractor.extract
  match r.2 with
  | .ok ss => let l := readLoop other ss u.segments; (⟨r.1, l.1⟩, l.2)
  | .err => (⟨r.1, u.segments⟩, .err)
  | .panic => (⟨r.1, u.segments⟩, .panic)

/-- /repo/message/unmarshaler.go:70-86 `UnmarshalSegment` with :88-98 `extractSegment`. -/
def Unmarshaler.unmarshalSegment {σ : Type} (other : Decoders σ) (u : Unmarshaler σ) (id : Str) (version : Int) :
    Unmarshaler σ × Outcome (Decoded σ) :=
  match decoderFor other id version with
  | none => (u, .err)
  | some f =>
    let r := u.extractor.extract
    match r.2 with
    | .ok _ =>
      (⟨r.1, u.segments⟩, match r.1.findSegment (utf8 id) with
        | none => .err
        | some b => f b)
    | .err => (⟨r.1, u.segments⟩, .err)
    | .panic => (⟨r.1, u.segments⟩, .panic)

/-- /repo/message/unmarshaler.go:101-103 `SegmentsByID`. -/
def Unmarshaler.segmentsByID {σ : Type} (u : Unmarshaler σ) (id : Str) : List (Decoded σ) := u.segments id

/-- /repo/message/unmarshaler.go:106-112 `SegmentByID`: a key in the map has at least one segment. -/
def Unmarshaler.segmentByID {σ : Type} (u : Unmarshaler σ) (id : Str) : Option (Decoded σ) := (u.segments id).head?

/-- /repo/message/unmarshaler.go:125-127 `MarshaledSegments` with
/repo/message/segment_extractor.go:73-77 `Segments`. -/
def Unmarshaler.marshaledSegments {σ : Type} (u : Unmarshaler σ) : List Bytes := u.extractor.segments

/-- A call that changes an `Unmarshaler`. -/
inductive ReadCall where
  | unmarshal
  | segment (id : Str) (version : Int)
  deriving DecidableEq

/-- One call, whatever it returns. -/
def Unmarshaler.step {σ : Type} (other : Decoders σ) (u : Unmarshaler σ) : ReadCall → Unmarshaler σ
  | .unmarshal => (u.unmarshal other).1
  | .segment id version => (u.unmarshalSegment other id version).1

/-- Calls one after the other. -/
def Unmarshaler.run {σ : Type} (other : Decoders σ) (u : Unmarshaler σ) : List ReadCall → Unmarshaler σ
  | [] => u
  | c :: cs => (u.step other c).run other cs

end Verif.Message

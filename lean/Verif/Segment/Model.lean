import Verif.Element.Model

/-
Model of element/segment_header.go, segment/segment.go and
segment/element_extractor.go.
-/

namespace Verif.Segment

open GoLib Element

/-! ## Segment header -/

/-- /repo/element/segment_header.go:25-31 `SegmentHeader`.  Simplification: ID,
position and version are never nil (the constructors :7-22 set them, and so does
`UnmarshalHBCI`); the reference may be. -/
structure Header where
  id : Str
  position : Int
  version : Int
  ref : Option Int
  deriving DecidableEq, Repr

/-- /repo/element/segment_header.go:14-22 `NewSegmentHeader`. -/
def newHeader (id : Str) (position version : Int) : Header := ⟨id, position, version, none⟩

/-- /repo/element/segment_header.go:7-11 `NewReferencingSegmentHeader`. -/
def newReferencingHeader (id : Str) (position version ref : Int) : Header := ⟨id, position, version, some ref⟩

/-- /repo/element/segment_header.go:20,66-73: the header as a data element group. -/
def Header.de (h : Header) : DE :=
  .group 4 [some (.alnum h.id 6), some (.number h.position 3), some (.number h.version 3),
    h.ref.map fun r => .number r 3]

/-- `SegmentHeader.MarshalHBCI`, promoted from the embedded group. -/
def Header.marshal (h : Header) : Outcome Bytes := h.de.marshal

/-- /repo/element/segment_header.go:39-41 `SetPosition`. -/
def Header.setPosition (h : Header) (pos : Int) : Header := { h with position := pos }

/-- /repo/element/segment_header.go:44-46 `SetReference`: writes through the pointer,
so it panics on a header without reference. -/
def Header.setReference (h : Header) (ref : Int) : Outcome Header :=
  match h.ref with
  | none => .panic
  | some _ => .ok { h with ref := some ref }

/-- /repo/element/segment_header.go:49-54 `ReferencingSegment`. -/
def Header.referencing (h : Header) : Int := h.ref.getD (-1)

/-- The fourth field of /repo/element/segment_header.go:106-112; `none` when the
receiver's reference is left alone. -/
def unmarshalRef : List Bytes → Outcome (Option Int)
  | _ :: _ :: _ :: r :: _ => if r = [] then .ok none else (unmarshalNumber r).map' some
  | _ => .ok none

/-- /repo/element/segment_header.go:76-114 `UnmarshalHBCI` on a fresh receiver. -/
def unmarshalHeader (b : Bytes) : Outcome Header :=
  (extractElements b).bind fun es =>
    match es with
    | i :: p :: v :: _ =>
      (unmarshalNumber p).bind fun pos =>
        (unmarshalNumber v).bind fun ver =>
          (unmarshalRef es).bind fun ref => .ok ⟨unmarshalText i, pos, ver, ref⟩
    | _ => .err

/-! ## Segments -/

/-- /repo/segment/segment.go:79-82 `segment`: header and the elements the concrete
segment type returns from `elements()`; nil pointers are `none`. -/
structure Seg where
  header : Header
  elements : List (Option DE)

/-- /repo/segment/segment.go:70-73 `NewBasicSegment`. -/
def newSegment (position : Int) (id : Str) (version : Int) (es : List (Option DE)) : Seg :=
  ⟨newHeader id position version, es⟩

/-- /repo/segment/segment.go:65-68 `NewReferencingBasicSegment`. -/
def newReferencingSegment (position ref : Int) (id : Str) (version : Int) (es : List (Option DE)) : Seg :=
  ⟨newReferencingHeader id position version ref, es⟩

/-- /repo/segment/segment.go:96-117 `MarshalHBCI`: join with `+`, cut every `+` at
the right end, append `'`. -/
def Seg.marshal (s : Seg) : Outcome Bytes :=
  s.header.marshal.bind fun h =>
    (DE.marshalAll s.elements).map' fun ps => trimRight 43 (join 43 (h :: ps)) ++ [39]

/-- /repo/segment/segment.go:138-140 `SetPosition`, given the number drawn. -/
def Seg.setPosition (s : Seg) (pos : Int) : Seg := { s with header := s.header.setPosition pos }

/-! ## Extraction of the elements of a segment -/

/-- The loop of /repo/segment/element_extractor.go:25-38 over the lexer's tokens;
`cur` and `acc` are `current` and `e.elements`. -/
def extractLoop : List Token.Token → Bytes → List Bytes → Outcome (List Bytes)
  | [], _, acc => .ok acc
  | t :: ts, cur, acc =>
    if t.typ = .error then .err
    else if t.typ = .segmentEndMarker ∨ t.typ = .dataElementSeparator then
      extractLoop ts [] (if cur ≠ [] ∨ t.typ ≠ .segmentEndMarker then acc ++ [cur] else acc)
    else extractLoop ts (cur ++ t.val) acc

/-- /repo/segment/element_extractor.go:10-42 `ExtractElements`. -/
def extractElements (s : Bytes) : Outcome (List Bytes) :=
  match Token.lex s with
  | .done ts => extractLoop ts [] []
  | _ => .panic

end Verif.Segment

import Verif.GoLib
import Verif.Domain.Model

/-
Model of the flag `-segment_versions` of the command unmarshaler.
-/

namespace Verif.Generator

open GoLib

/-- /repo/generator/segment_identifier.go:4-9 `SegmentIdentifier`, without the versions: they are empty here. -/
structure SegmentId where
  name : Bytes
  version : Int
  interface : Bytes
  deriving DecidableEq, Repr

/-- /repo/cmd/unmarshaler/unmarshaler_generator.go:91-93: `strings.FieldsFunc` with a test for the comma: the pieces between
the commas, but for the empty ones. -/
def fieldsComma (u : Bytes) : List Bytes := (split 44 u).filter fun p => !p.isEmpty

/-- /repo/cmd/unmarshaler/unmarshaler_generator.go:95-109: one piece; `none` is an error. -/
def readVersion (seg : Bytes) : Option SegmentId :=
  match split 58 seg with
  | name :: v :: more =>
    (atoi v).map fun n => ⟨name, n, match more with | [i] => i | _ => b!"Segment"⟩
  | _ => none

/-- The loop of /repo/cmd/unmarshaler/unmarshaler_generator.go:94-110: the flag after it and whether there was an error. -/
def readVersions (s : List SegmentId) : List Bytes → List SegmentId × Bool
  | [] => (s, false)
  | seg :: segs =>
    match readVersion seg with
    | none => (s, true)
    | some id => readVersions (s ++ [id]) segs

/-- /repo/cmd/unmarshaler/unmarshaler_generator.go:86-112 `Set`: the flag after the call and whether there was an error; `rest` is
`strconv.Unquote` for anything but plain text in double quotes. -/
def setVersions (rest : Bytes → Option Bytes) (s : List SegmentId) (input : Bytes) : List SegmentId × Bool :=
  match Domain.unquote rest input with
  | none => (s, true)
  | some u => readVersions s (fieldsComma u)

/-- /repo/cmd/unmarshaler/unmarshaler_generator.go:78-84 `String`. -/
def showVersions (s : List SegmentId) : Bytes := s.flatMap fun v => v.name ++ 58 :: (itoa v.version ++ 58 :: v.interface)

end Verif.Generator

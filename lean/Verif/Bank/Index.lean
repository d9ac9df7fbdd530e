import Verif.Bank.Segments
import Verif.Message.Reader

/-
Model of the index of known segments while it is being filled: segment/segment_index.go.
-/

namespace Verif.Bank

open GoLib Element Segment Message

/-- /repo/segment/segment_index.go:14-16 `SegmentIndex`: what is registered for an ID and a version. A registered
segment that is no `Unmarshaler` is `some none`. -/
abbrev SegIndex (α : Type) := Str × Int → Option (Option α)

variable {α : Type}

/-- /repo/segment/segment_index.go:62. -/
def SegIndex.empty : SegIndex α := fun _ => none

/-- /repo/segment/segment_index.go:18-30 `UnmarshalerForSegment`. -/
def SegIndex.unmarshalerFor (s : SegIndex α) (k : Str × Int) : Outcome α :=
  match s k with
  | some (some u) => .ok u
  | some none => .err
  | none => .err

/-- /repo/segment/segment_index.go:32-35 `IsIndexed`. -/
def SegIndex.isIndexed (s : SegIndex α) (k : Str × Int) : Bool := (s k).isSome

/-- /repo/segment/segment_index.go:37-45 `IsUnmarshaler`. -/
def SegIndex.isUnmarshaler (s : SegIndex α) (k : Str × Int) : Bool :=
  match s k with
  | some u => u.isSome
  | none => false

/-- /repo/segment/segment_index.go:47-53 `addToIndex`. -/
def SegIndex.add (s : SegIndex α) (k : Str × Int) (u : Option α) : Outcome (SegIndex α) :=
  if s.isIndexed k then .err else .ok fun x => if x = k then some u else s x

/-- /repo/segment/segment_index.go:55-60 `mustAddToIndex`. -/
def SegIndex.mustAdd (s : SegIndex α) (k : Str × Int) (u : Option α) : Outcome (SegIndex α) :=
  match s.add k u with
  | .ok s => .ok s
  | _ => .panic

/-- The calls of `mustAddToIndex` in the `init` functions one after the other
(/repo/segment/segment_index.go:64-68 and /repo/segment/sync_unmarshaler.go:17-22 for example). -/
def SegIndex.register : List ((Str × Int) × Option α) → SegIndex α → Outcome (SegIndex α)
  | [], s => .ok s
  | (k, u) :: l, s => (s.mustAdd k u).bind fun s => register l s

/-- All calls of `mustAddToIndex` in the package: the acknowledgements
(/repo/segment/segment_index.go:65-66) and the others (:67 and the generated files). -/
def registrations : List ((Str × Int) × Option (Bytes → Outcome (Decoded BankSeg))) :=
  ((c!"HIRMG", 2), some fun b => (unmarshalAckSegment .message b).map' .ack) ::
  ((c!"HIRMS", 2), some fun b => (unmarshalAckSegment .segment b).map' .ack) ::
  known.map fun e => ((e.1, e.2.1), some fun b => (e.2.2 b).map' .other)

end Verif.Bank

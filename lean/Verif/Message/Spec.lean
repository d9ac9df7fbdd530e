import Verif.Segment.Spec

/-
Specification vocabulary for messages.
-/

namespace Verif.Message.Spec

open Verif.Token.Spec

/-- A separator inside a segment: `+` or `:`. -/
def Separator (d : Byte) : Prop := d = 43 ∨ d = 58

/-- The beginning of a segment up to a separator: wire values or nothing, each
followed by a separator. -/
inductive Unfinished : Bytes → Prop where
  | nil : Unfinished []
  | sep {d : Byte} {u : Bytes} : Separator d → Unfinished u → Unfinished (d :: u)
  | value {v : Bytes} {d : Byte} {u : Bytes} : Value v → Separator d → Unfinished u → Unfinished (v ++ d :: u)

/-- The text of one segment: wire values or nothing, separated by `+` and `:`, and
the terminator `'`. -/
def SegmentText (s : Bytes) : Prop :=
  ∃ u v, s = u ++ v ++ [39] ∧ Unfinished u ∧ (v = [] ∨ Value v)

end Verif.Message.Spec

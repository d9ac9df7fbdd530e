import Verif.Element.Spec

/-
Specification vocabulary for segments.
-/

namespace Verif.Segment.Spec

open Verif.Token.Spec

/-- The bytes of an element of a segment: wire values or nothing, separated by
colons. -/
inductive Field : Bytes → Prop where
  | nil : Field []
  | one {p : Bytes} : Value p → Field p
  | none_more {f : Bytes} : Field f → Field (58 :: f)
  | more {p f : Bytes} : Value p → Field f → Field (p ++ 58 :: f)

end Verif.Segment.Spec

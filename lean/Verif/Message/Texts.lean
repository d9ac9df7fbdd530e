import Verif.Message.Reference

/-
Model of `String` of elements and segments (element/data_element.go, segment/segment.go) and of
the functions of `BasicMessage` that look for segments (message/message.go:310-361).  Go strings
are given by their bytes.
-/

namespace Verif.Element

open GoLib

/-- `fmt.Sprintf("@%d@%s", len(b), b)`: /repo/element/data_element.go:440-442. -/
def binaryText (d : Bytes) : Bytes := (64 :: natDec d.length) ++ 64 :: d

mutual
/-- `String` of every element type: /repo/element/data_element.go:64 (numbers, by `%v`),
:254-256 (alphanumeric elements, codes, identifications, currencies), :285-287 (texts), :316-319
(digits, country codes), :377-384 (floats, values), :440-442 (binary data), :495-500 (booleans),
:571-573 (dates), :629-631 (times); :133-141 for groups, which are joined with `:` and keep
every `:` at the right end. -/
def DE.print : DE → Bytes
  | .alnum v _ => Message.utf8 (escape v)
  | .text v _ => Message.utf8 (escape v)
  | .digit v max => zeroPad max v
  | .number v _ => itoa v
  | .float v _ => floatString v
  | .dtaus v _ => binaryText v
  | .binary v _ => binaryText v
  | .boolean v => if v then b!"J" else b!"N"
  | .code v _ _ => Message.utf8 (escape v)
  | .date t => Time.format8 t
  | .virtualDate v _ => itoa v
  | .time t => Time.format6 t
  | .identification v _ => Message.utf8 (escape v)
  | .countryCode v max => zeroPad max v
  | .currency v _ => Message.utf8 (escape v)
  | .value v _ => floatString v
  | .group _ es => join 58 (DE.printAll es)
  | .array _ _ es => join 58 (DE.printAll es)

/-- The loops of /repo/element/data_element.go:135-139 and /repo/segment/segment.go:87-92. -/
def DE.printAll : List (Option DE) → List Bytes
  | [] => []
  | e :: r => DE.printOpt e :: DE.printAll r

/-- One round of that loop: nil elements stay empty. -/
def DE.printOpt : Option DE → Bytes
  | none => []
  | some e => e.print
end

end Verif.Element

namespace Verif.Segment

open GoLib Element

/-- /repo/segment/segment.go:84-94 `String`: header and elements joined with `+`, and `'`. -/
def Seg.print (s : Seg) : Bytes := join 43 (s.header.de.print :: DE.printAll s.elements) ++ [39]

end Verif.Segment

namespace Verif.Message

open GoLib Segment

/-- The loop of /repo/message/message.go:311-315: a nil segment has no header to ask. -/
def findFirst (id : Str) : List (Option Seg) → Outcome (Option Seg)
  | [] => .ok none
  | none :: _ => .panic
  | some s :: r => if s.header.id = id then .ok (some s) else findFirst id r

/-- The loop of /repo/message/message.go:322-326. -/
def findAll (id : Str) : List (Option Seg) → Outcome (List Seg)
  | [] => .ok []
  | none :: _ => .panic
  | some s :: r => (findAll id r).map' fun ss => if s.header.id = id then s :: ss else ss

/-- /repo/message/message.go:310-317 `FindSegment`; without an `HBCIMessage` it panics. -/
def BasicMessage.findSegment (m : BasicMessage) (id : Str) : Outcome (Option Seg) :=
  match m.content with
  | none => .panic
  | some segs => findFirst id segs

/-- /repo/message/message.go:320-328 `FindSegments`. -/
def BasicMessage.findSegments (m : BasicMessage) (id : Str) : Outcome (List Seg) :=
  match m.content with
  | none => .panic
  | some segs => findAll id segs

/-- /repo/message/message.go:332-339 `FindMarshaledSegment`: what `String` prints, not what
`MarshalHBCI` returns. -/
def BasicMessage.findMarshaledSegment (m : BasicMessage) (id : Str) : Outcome (Option Bytes) :=
  (m.findSegment id).map' fun o => o.map Seg.print

/-- /repo/message/message.go:343-351 `FindMarshaledSegments`. -/
def BasicMessage.findMarshaledSegments (m : BasicMessage) (id : Str) : Outcome (List Bytes) :=
  (m.findSegments id).map' fun l => l.map Seg.print

/-- /repo/message/message.go:354-361 `SegmentPosition`: not implemented. -/
def BasicMessage.segmentPosition (_ : BasicMessage) (_ : Str) : Int := -1

end Verif.Message

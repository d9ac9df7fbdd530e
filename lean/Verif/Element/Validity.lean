import Verif.Element.Groups
import Verif.Segment.Model

/-
Model of `IsValid` and `Length` for all data elements, groups included
(element/data_element.go, element/segment_header.go, element/message.go,
element/acknowledgement.go).  The library itself calls neither; they are part of its
interface.
-/

namespace Verif.Element

open GoLib

/-- What `fmt.Sprintf("%v", x)` prints for the two kinds of values the model does not print
itself: floats and points in time.  Only used through its length. -/
structure Printer where
  float : Dec → Str
  time : Time.Civil → Str

mutual
/-- `Length`: /repo/element/data_element.go:63 for single elements, the length of what `%v`
prints for the value (the methods named `String` of the element types do not count, the
receiver being the embedded element); :123-131 for groups. -/
def DE.size (p : Printer) : DE → Nat
  | .alnum v _ => strLen v
  | .text v _ => strLen v
  | .digit v _ => (itoa v).length
  | .number v _ => (itoa v).length
  | .float v _ => strLen (p.float v)
  | .dtaus v _ => (bytesText v).length
  | .binary v _ => (bytesText v).length
  | .boolean v => if v then 4 else 5
  | .code v _ _ => strLen v
  | .date t => strLen (p.time t)
  | .virtualDate v _ => (itoa v).length
  | .time t => strLen (p.time t)
  | .identification v _ => strLen v
  | .countryCode v _ => (itoa v).length
  | .currency v _ => strLen v
  | .value v _ => strLen (p.float v)
  | .group _ es => DE.sizeAll p es
  | .array _ _ es => DE.sizeAll p es

/-- The loop of /repo/element/data_element.go:125-129. -/
def DE.sizeAll (p : Printer) : List (Option DE) → Nat
  | [] => 0
  | e :: r => DE.sizeOpt p e + DE.sizeAll p r

/-- One round of that loop: nil elements are skipped. -/
def DE.sizeOpt (p : Printer) : Option DE → Nat
  | none => 0
  | some e => e.size p
end

mutual
/-- `IsValid`: /repo/element/data_element.go:62, :247-252, :542-547, :591-593, :649-651 and
:725-727 for single elements; :109-121 for groups, which compare the number of their
elements with the one they were made with; :207-212 for arrays, whose embedded group was
made with that very number (:196). -/
def DE.isValid (p : Printer) : DE → Bool
  | .alnum v max => alnumIsValid v max
  | .text v max => decide ((strLen v : Int) ≤ max)
  | .digit v max => intIsValid v max
  | .number v max => intIsValid v max
  | .float v max => decide ((strLen (p.float v) : Int) ≤ max)
  | .dtaus v max => binaryIsValid v max
  | .binary v max => binaryIsValid v max
  | .boolean v => boolIsValid v
  | .code v max set => codeIsValid v max set
  | .date t => timeIsValid t
  | .virtualDate v max => intIsValid v max
  | .time t => timeIsValid t
  | .identification v max => alnumIsValid v max
  | .countryCode v max => intIsValid v max
  | .currency v _ => strLen v == 3
  | .value v max => decide ((strLen (p.float v) : Int) ≤ max)
  | .group count es => if count ≠ es.length then false else DE.validAll p es
  | .array min max es => if es.length < min ∨ max < es.length then false else DE.validAll p es

/-- The loop of /repo/element/data_element.go:113-119. -/
def DE.validAll (p : Printer) : List (Option DE) → Bool
  | [] => true
  | e :: r => DE.validOpt p e && DE.validAll p r

/-- One round of that loop: nil elements are skipped. -/
def DE.validOpt (p : Printer) : Option DE → Bool
  | none => true
  | some e => e.isValid p
end

/-- /repo/element/segment_header.go:58-63 `SegmentHeader.IsValid` for a header with the given
elements: ID, position and version must be there, the reference need not. -/
def headerIsValid (p : Printer) (id position version ref : Option DE) : Bool :=
  if id.isNone || position.isNone || version.isNone then false
  else (DE.group 4 [id, position, version, ref]).isValid p

/-- /repo/element/message.go:40-45 `ReferencingMessageDataElement.IsValid`. -/
def referencingIsValid (p : Printer) (dialogID number : Option DE) : Bool :=
  if dialogID.isNone || number.isNone then false else (DE.group 2 [dialogID, number]).isValid p

/-- /repo/element/acknowledgement.go:80-85 `AcknowledgementDataElement.IsValid`: code and text
must be there. -/
def acknowledgementIsValid (p : Printer) (code reference text params : Option DE) : Bool :=
  if code.isNone || text.isNone then false else (DE.group 4 [code, reference, text, params]).isValid p

/-- /repo/element/acknowledgement.go:126-132 `NewParams`. -/
def newParams (min max : Nat) (params : List Str) : DE := .array min max (params.map fun s => some (.alnum s 35))

/-- /repo/element/acknowledgement.go:19-28 `NewAcknowledgement`, asked whether it is valid.
`NewParams` is given ten as the least and as the greatest number. -/
def newAcknowledgementIsValid (p : Printer) (code : Int) (reference text : Str) (params : List Str) : Bool :=
  acknowledgementIsValid p (some (.digit code 4)) (some (.alnum reference 7)) (some (.alnum text 80))
    (some (newParams 10 10 params))

/-- /repo/element/segment_header.go:14-22 `NewSegmentHeader`, asked whether it is valid. -/
def newHeaderIsValid (p : Printer) (id : Str) (position version : Int) : Bool :=
  headerIsValid p (some (.alnum id 6)) (some (.number position 3)) (some (.number version 3)) none

/-- /repo/element/segment_header.go:76-114 `SegmentHeader.UnmarshalHBCI` on a fresh receiver,
asked whether it is valid: each element takes the length of its text as its maximum
(/repo/element/data_element.go:265-270, :355-362). -/
def readHeaderIsValid (p : Printer) (b : Bytes) : Outcome Bool :=
  (extractElements b).bind fun es =>
    match es with
    | i :: n :: v :: rest =>
      (unmarshalNumber n).bind fun pos =>
        (unmarshalNumber v).bind fun ver =>
          (match rest with
            | [] => Outcome.ok none
            | r :: _ => if r = [] then .ok none else (unmarshalNumber r).map' fun k => some (DE.number k r.length)).map'
            fun ref => headerIsValid p (some (.alnum (unmarshalText i) (strLen (unmarshalText i))))
              (some (.number pos n.length)) (some (.number ver v.length)) ref
    | _ => .err

end Verif.Element

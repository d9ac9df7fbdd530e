import Verif.Bank.Segments

/-
Model of the package generator, which writes the `UnmarshalHBCI` methods of the segments: which fields it
finds in a source file, and what the code does that its templates produce.
-/

namespace Verif.Generator

open GoLib Element Segment Message

/-! ## Source files -/

/-- A line of a struct: the names it declares (none for an embedded type) and the type its pointer points to,
`none` if the type is not a pointer (go/ast `Field`, as used in
/repo/generator/segment_field_visitor.go:97-112). -/
structure Decl where
  names : List Str
  pointerTo : Option Str
  deriving DecidableEq, Repr

/-- An entry of the list returned by `elements()`: a field of the receiver (or of any other variable: only the
name counts) with the line it stands on, or anything else
(/repo/generator/segment_field_visitor.go:30-56). -/
inductive Elt where
  | field (name : Str) (line : Nat)
  | other
  deriving DecidableEq, Repr

/-- The body of a method: a single `return []element.DataElement{...}`, or anything else
(/repo/generator/segment_field_visitor.go:23-29). -/
inductive Body where
  | literal (elts : List Elt)
  | otherwise
  deriving DecidableEq, Repr

/-- A method: its name, the type its receiver points to (`none` if the receiver is not a pointer), its body
(/repo/generator/segment_field_visitor.go:68-85). -/
structure Method where
  name : Str
  receiver : Option Str
  body : Body
  deriving DecidableEq, Repr

/-- A source file: its types with the lines of their structs, and its methods in order. A type that is no
struct is one without lines. Names declared as something else than a type are left out: the generator panics
on them (/repo/generator/segment_field_visitor.go:37). -/
structure File where
  types : List (Str × List Decl)
  methods : List Method
  deriving DecidableEq, Repr

/-- /repo/generator/segment_unmarshaler.go:193-197. -/
structure Fld where
  name : Str
  typ : Str
  line : Nat
  deriving DecidableEq, Repr

/-! ## Finding the fields -/

/-- /repo/generator/segment_field_visitor.go:94-118 `structFieldVisitor.Visit`: only the first name of a line
is looked at; `acc` is `s.fieldTypeDecl`, `none` for the empty string. -/
def fieldType (name : Str) : List Decl → Option Str → Outcome (Option Str)
  | [], acc => .ok acc
  | d :: ds, acc =>
    match d.names with
    | [] => fieldType name ds acc
    | x :: _ =>
      if x ≠ name then fieldType name ds acc
      else
        match d.pointerTo with
        | none => .err
        | some t => fieldType name ds (some t)

/-- /repo/generator/segment_field_visitor.go:30-57: the loop over the entries. -/
def eltFields (ds : List Decl) : List Elt → Outcome (List Fld)
  | [] => .ok []
  | .other :: _ => .err
  | .field name line :: es =>
    (fieldType name ds none).bind fun t =>
      match t with
      | none => .err
      | some t => (eltFields ds es).map' fun fs => ⟨name, t, line⟩ :: fs

/-- /repo/generator/segment_field_visitor.go:68-85 `isElementsMethod`. -/
def isElements (seg : Str) (m : Method) : Bool := m.name == c!"elements" && m.receiver == some seg

/-- /repo/generator/segment_field_visitor.go:20-66 `elementVisitor.Visit`, walking over the file. An error
does not stop the walk, but the first one already makes the generator fail; which one is reported is not
modelled. -/
def visit (seg : Str) (ds : List Decl) : List Method → Outcome (List Fld)
  | [] => .ok []
  | m :: ms =>
    if isElements seg m then
      match m.body with
      | .otherwise => visit seg ds ms
      | .literal es => (eltFields ds es).bind fun fs => (visit seg ds ms).map' fun r => fs ++ r
    else visit seg ds ms

/-- /repo/generator/segment_unmarshaler.go:177-191 `extractFields`; `sort` is `sort.Sort` on the lines
(:199-203). -/
def extractFields (sort : List Fld → List Fld) (file : File) (seg : Str) : Outcome (List Fld) :=
  match file.types.lookup seg with
  | none => .err
  | some ds => (visit seg ds file.methods).map' sort

/-! ## What the generated code does -/

variable {V : Type}

/-- The block of the template /repo/generator/segment_unmarshaler.go:280-290 for the field with index `idx`
out of `n`; `dec` are the `UnmarshalHBCI` methods of the element types, `es` the variable `elements`. -/
def readField (dec : Str → Bytes → Outcome V) (es : List Bytes) (n idx : Nat) (f : Fld) : Outcome (Option V) :=
  match es[idx + 1]? with
  | none => .ok none
  | some b =>
    if b = [] then .ok none
    else
      (dec f.typ (if n = idx + 1 then (if es.length + 1 > idx + 1 then join 43 (es.drop (idx + 1)) else b) else b)).map' some

/-- The blocks one after the other; `st` are the fields of the receiver by name. -/
def readFields (dec : Str → Bytes → Outcome V) (es : List Bytes) (n : Nat) :
    Nat → List Fld → (Str → Option V) → Outcome (Str → Option V)
  | _, [], st => .ok st
  | idx, f :: fs, st =>
    (readField dec es n idx f).bind fun v =>
      readFields dec es n (idx + 1) fs (match v with
        | none => st
        | some v => fun x => if x = f.name then some v else st x)

/-- The method produced by /repo/generator/segment_unmarshaler.go:266-293 `segmentUnmarshalingTemplate` for a
list of fields, on a fresh receiver. -/
def generatedCode (dec : Str → Bytes → Outcome V) (fs : List Fld) (b : Bytes) : Outcome (Header × (Str → Option V)) :=
  Bank.generated b fun h es => (readFields dec es fs.length 0 fs fun _ => none).map' fun st => (h, st)

/-- The fields of all versions: the loop of /repo/generator/segment_unmarshaler.go:82-107. -/
def versionFields (sort : List Fld → List Fld) (file : File) : List (Int × Str) → Outcome (List (Int × List Fld))
  | [] => .ok []
  | (v, name) :: vs =>
    (extractFields sort file name).bind fun fs => (versionFields sort file vs).map' fun r => (v, fs) :: r

/-- The method produced by /repo/generator/segment_unmarshaler.go:362-389
`versionedSegmentUnmarshalingTemplate`: the elements, the header (`elements[0]` panics if there is none), a
switch over the version. -/
def versionedCode (dec : Str → Bytes → Outcome V) (cases : List (Int × List Fld)) (b : Bytes) :
    Outcome (Header × (Str → Option V)) :=
  (Segment.extractElements b).bind fun es =>
    match es with
    | [] => .panic
    | hb :: _ =>
      (unmarshalHeader hb).bind fun h =>
        match cases.find? fun c => c.1 == h.version with
        | some c => generatedCode dec c.2 b
        | none => .err

end Verif.Generator

import Verif.GoLib
import Verif.Token.Lexer

/-
Model of message/segment_extractor.go.
-/

namespace Verif.Message

open GoLib

/-- /repo/message/segment_extractor.go:18-21 `SegmentExtractor`. -/
structure Extractor where
  raw : Bytes
  segments : List Bytes
  deriving DecidableEq, Repr

/-- /repo/message/segment_extractor.go:12-14 `NewSegmentExtractor`. -/
def newExtractor (raw : Bytes) : Extractor := ⟨raw, []⟩

/-- The loop of /repo/message/segment_extractor.go:28-38 over the lexer's tokens:
`cur` is `current`, `acc` is `s.segments`.  Returns `s.segments` afterwards and
whether no ERROR token was met. -/
def extractLoop : List Token.Token → Bytes → List Bytes → List Bytes × Bool
  | [], _, acc => (acc, true)
  | t :: ts, cur, acc =>
    if t.typ = .error then (acc, false)
    else if t.typ = .segmentEndMarker then extractLoop ts [] (acc ++ [cur ++ t.val])
    else extractLoop ts (cur ++ t.val) acc

/-- /repo/message/segment_extractor.go:25-42 `Extract`: the new state and the result.
The lexer hands over its tokens one by one, so those before a panic are processed. -/
def Extractor.extract (e : Extractor) : Extractor × Outcome (List Bytes) :=
  match Token.lex e.raw with
  | .done ts =>
    let r := extractLoop ts [] e.segments
    ({ e with segments := r.1 }, if r.2 then .ok r.1 else .err)
  | .panic ts => ({ e with segments := (extractLoop ts [] e.segments).1 }, .panic)
  | _ => (e, .panic)

/-- /repo/message/segment_extractor.go:46-54 `FindSegment`; nil is `none`. -/
def Extractor.findSegment (e : Extractor) (id : Bytes) : Option Bytes :=
  e.segments.find? fun s => id.isPrefixOf s

/-- `bytes.SplitN(segment, ":", 2)[0]`, /repo/message/segment_extractor.go:60. -/
def beforeColon (s : Bytes) : Bytes := s.takeWhile fun b => b != 58

/-- The loop of /repo/message/segment_extractor.go:59-67 with the map as a function;
a missing key holds nil, i.e. no segments. -/
def groupById : List Bytes → (Bytes → List Bytes) → (Bytes → List Bytes)
  | [], m => m
  | s :: ss, m => groupById ss fun k => if k = beforeColon s then m k ++ [s] else m k

/-- /repo/message/segment_extractor.go:57-69 `FindSegments`. -/
def Extractor.findSegments (e : Extractor) (id : Bytes) : List Bytes :=
  groupById e.segments (fun _ => []) id

end Verif.Message

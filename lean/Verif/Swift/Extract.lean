import Verif.Swift.Lexer
import Verif.Charset

/-
Model of swift/message_extractor.go and swift/tag_extractor.go.
-/

namespace Verif.Swift

open Token (Token Typ)

/-- The loop of /repo/swift/message_extractor.go:29-39 over the lexer's tokens: `cur` is
`current`, `acc` is `m.extractedMessages`. -/
def messageLoop : List Token → Bytes → List Bytes → Outcome (List Bytes)
  | [], _, acc => .ok acc
  | t :: ts, cur, acc =>
    if t.typ = .error then .err
    else if t.typ = .swiftMessageSeparator then messageLoop ts [] (acc ++ [cur ++ t.val])
    else messageLoop ts (cur ++ t.val) acc

/-- /repo/swift/message_extractor.go:11-17 `NewMessageExtractor` and :27-43 `Extract`, called
once. -/
def extractMessages (raw : Bytes) : Outcome (List Bytes) :=
  match lex raw with
  | .done ts => messageLoop ts [] []
  | _ => .panic

/-- The loop of /repo/swift/tag_extractor.go:77-90. -/
def tagLoop : List Token → Bytes → List Bytes → Outcome (List Bytes)
  | [], _, acc => .ok acc
  | t :: ts, cur, acc =>
    if t.typ = .error then .err
    else if t.typ = .swiftTagSeparator ∨ t.typ = .swiftMessageSeparator then tagLoop ts [] (acc ++ [cur])
    else if t.typ = .swiftDatasetStart then tagLoop ts cur acc
    else tagLoop ts (cur ++ t.val) acc

/-- /repo/swift/tag_extractor.go:61-67 `newTagExtractor` and :75-94 `Extract`, called once. -/
def extractTags (raw : Bytes) : Outcome (List Bytes) :=
  match lex raw with
  | .done ts => tagLoop ts [] []
  | _ => .panic

/-- /repo/swift/tag_extractor.go:30-51 `extractTagElements`: the identifier with both colons,
and the value.  `buf.ReadBytes(':')` fails if there is no second colon. -/
def tagElements (tag : Bytes) : Outcome (Bytes × Bytes) :=
  match tag with
  | 58 :: rest =>
    match rest.dropWhile (fun b => b != 58) with
    | [] => .err
    | c :: value => .ok (58 :: rest.takeWhile (fun b => b != 58) ++ [c], value)
  | _ => .err

end Verif.Swift

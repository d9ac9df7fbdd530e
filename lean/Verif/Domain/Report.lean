import Verif.Domain.Model

/-
/repo/domain/acknowledgement.go:50-69, :102-122, and the error texts of /repo/dialog/dialog.go.
-/

namespace Verif.Domain

open GoLib

/-- `%d`. -/
def decimal (n : Int) : Str := (itoa n).map fun b => Char.ofNat b.toNat

/-- The constants of /repo/domain/acknowledgement.go:32-37. -/
def AckType.name : AckType → Str
  | .message => c!"MessageAcknowledgement"
  | .segment => c!"SegmentAcknowledgement"

/-- `strings.Join`. -/
def joinWith (sep : Str) : List Str → Str
  | [] => []
  | [x] => x
  | x :: y :: xs => x ++ sep ++ joinWith sep (y :: xs)

namespace Acknowledgement

/-- The beginning of both texts, /repo/domain/acknowledgement.go:52-57 and :104-109. -/
def heading (a : Acknowledgement) : Str :=
  a.type.name ++ c!" for message " ++ decimal a.referencingMessage.messageNumber ++ c!" (" ++ a.referencingMessage.dialogID ++ c!")" ++
    (if a.referencingSegmentNumber > 0 then c!", segment " ++ decimal a.referencingSegmentNumber ++ c!": " else c!": ")

/-- The end of both texts, /repo/domain/acknowledgement.go:58-68 and :111-121; `quote` is what is
done to the parameters. -/
def details (quote : Str → Str) (a : Acknowledgement) : Str :=
  c!"Code: " ++ decimal a.code ++ c!", " ++
    (if a.referenceDataElement ≠ [] then c!"Position: " ++ a.referenceDataElement ++ c!", " else c!"Position: none, ") ++
    c!"Text: '" ++ a.text ++ c!"'" ++
    (if a.params ≠ [] then c!", Parameters: " ++ quote (joinWith c!", " a.params) else [])

/-- /repo/domain/acknowledgement.go:50-69 `Acknowledgement.String`; `quote` is `%q`. -/
def string (quote : Str → Str) (a : Acknowledgement) : Str := heading a ++ details quote a

/-- /repo/domain/acknowledgement.go:102-122 `StatusAcknowledgement.String`; `at_` is Go's text of
the time. -/
def statusString (at_ : Str) (a : Acknowledgement) : Str := heading a ++ c!"Transmitted at: " ++ at_ ++ c!", " ++ details id a

end Acknowledgement

/-- The loops over the acknowledgements of an answer with the error they end in:
/repo/dialog/dialog.go:127-140 (and :190-201, :246-257, :298-309, :321-332, :393-404, :428-439, with
other titles).  No text means no error. -/
def refusal (quote : Str → Str) (title : Str) (acks : List Acknowledgement) : Option Str :=
  let errors := acks.foldl (fun es a => if a.isError then es ++ [a.string quote] else es) []
  if errors.length > 0 then some (title ++ c!"\n" ++ joinWith c!"\n" errors) else none

end Verif.Domain

import Verif.Client.Lemmas
import Verif.Dialog.Sample
import Verif.Swift.LineProps

/-
A concrete bank for the examples beside the theorems about the client.  Nothing here is part
of the model.
-/

namespace Verif.Client.Sample

open GoLib Element Segment Message Domain Transport Dialog

/-- The decoded form of a segment is the segment. -/
def decoders : Decoders Bytes := fun id _ =>
  if id ∈ [c!"HISYN", c!"HIUPD", c!"HIKAZ", c!"HISAL", c!"HIPRO"] then some fun b => .ok b else none

/-- The statement is what stands in an HIKAZ segment from the tenth byte on; a balance is the
whole segment. -/
def views : ClientViews Bytes Bytes Bytes Bytes where
  statement b := if b.length < 15 then .panic else .ok ((b.drop 10).dropLast)
  balance b := .ok b
  sepaBalance b := .ok b
  status b := .ok b

/-- A bank, a sorting function and a clock. -/
def setup (answer : Nat → Outcome Body) (clock : Nat → Int) : Setup Bytes Bytes Bytes Bytes Bytes where
  world := { Dialog.Sample.world answer with decoders := decoders }
  views := views
  sorter := insertionSorter
  clock := clock
  today _ := ⟨2020, 1, 2, 3, 4, 5, 0⟩

/-- A dialog that knows its client system ID and the bank's parameters. -/
def known (answer : Nat → Outcome Body) : CSt Bytes Bytes :=
  let s := Dialog.Sample.known answer
  ⟨{ s with d := { s.d with
      supportedSegments := [(c!"HIKAZS", 6), (c!"HISALS", 7)]
      bankParameterData := { s.d.bankParameterData with parameters := { s.d.bankParameterData.parameters with version := 1 } } } }, 0⟩

/-- Two pages: the first request, message 2, is answered with a reference. -/
def twoPages : Nat → Outcome Body := fun n =>
  if n = 2 then Dialog.Sample.reply b!"dia" b!"3040::mehr:ref1" b!"HIKAZ:3:6+first'HIKAZ:4:6+second'"
  else if n = 5 then Dialog.Sample.reply b!"dia" b!"0020::ok" b!"HIKAZ:3:6+third'"
  else Dialog.Sample.reply b!"dia" b!"0010::ok" []

/-- The reference is missing. -/
def noReference : Nat → Outcome Body := fun n =>
  if n = 2 then Dialog.Sample.reply b!"dia" b!"3040::mehr" b!"HIKAZ:3:6+first'"
  else Dialog.Sample.reply b!"dia" b!"0010::ok" []

/-- The account of the examples. -/
def account : AccountConnection := ⟨c!"100", [], 280, c!"10000000"⟩

/-- The data fetched, and the kinds of the messages sent. -/
def fetched (answer : Nat → Outcome Body) (clock : Nat → Int) (fuel : Nat) : Option (Outcome Bytes × List Kind) :=
  (accountTransactions (setup answer clock) .fints300 (plainBuilder account false) ⟨⟨2020, 1, 1, 0, 0, 0, 0⟩, ⟨2020, 1, 2, 0, 0, 0, 0⟩⟩
    fuel [] (known answer)).map fun r => (r.1.map' (·.data), r.2.st.sent.map Sent.kind)

theorem two_pages : fetched twoPages (fun n => n) 3 =
    some (.ok b!"firstsecondthird", [.init, .job, .end_, .init, .job, .end_]) := by
  decide +kernel

theorem two_pages_stopped : fetched twoPages (fun _ => 7) 2 =
    some (.ok b!"thirdfirstsecond", [.init, .job, .end_, .init, .job, .end_]) := by
  decide +kernel

theorem no_reference : fetched noReference (fun n => n) 2 = some (.panic, [.init, .job, .end_]) := by
  decide +kernel

/-- Two pages with real statements. -/
def statements : Nat → Outcome Body := fun n =>
  if n = 2 then Dialog.Sample.reply b!"dia" b!"3040::mehr:ref1"
    b!"HIKAZ:3:6+\r\n:20:A\r\n:25:1/2\r\n:60F:C260101EUR5,00\r\n:61:2601020102C12,50NMSCX\r\n:62F:C260101EUR5,00\r\n-'"
  else if n = 5 then Dialog.Sample.reply b!"dia" b!"0020::ok"
    b!"HIKAZ:3:6+\r\n:20:A\r\n:25:1/2\r\n:60F:C260101EUR5,00\r\n:61:2601020102C2,50NMSCX\r\n:62F:C260101EUR5,00\r\n-'"
  else Dialog.Sample.reply b!"dia" b!"0010::ok" []

/-- The amounts of the transactions, and the kinds of the messages sent. -/
def summary (answer : Nat → Outcome Body) : Option (Outcome (List Bytes) × List Kind) :=
  (transactions (setup answer fun n => n) Swift.sampleLib .fints300 (plainBuilder account false)
    ⟨⟨2020, 1, 1, 0, 0, 0, 0⟩, ⟨2020, 1, 2, 0, 0, 0, 0⟩⟩ [] 5 (known answer)).map fun r =>
      (r.1.map' fun txs => txs.map fun x => (x.amount : Bytes), r.2.st.sent.map Sent.kind)

set_option maxRecDepth 20000 in
theorem two_statements : summary statements =
    some (.ok [b!"12.50", b!"2.50"], [.init, .job, .end_, .init, .job, .end_]) := by
  decide +kernel

end Verif.Client.Sample

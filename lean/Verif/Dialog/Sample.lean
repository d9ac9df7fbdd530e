import Verif.Dialog.Calls

/-
A concrete bank for the examples beside the theorems of `Verif.Dialog.Props`.  Nothing
here is part of the model.
-/

namespace Verif.Dialog.Sample

open GoLib Element Segment Message Domain Transport

/-- The decoded form of a segment is the segment. -/
def decoders : Decoders Bytes := fun id _ =>
  if id ∈ [c!"HISYN", c!"HIUPD", c!"HITANS"] then some fun b => .ok b else none

/-- Accounts are the segments describing them; the client system ID is always "sys1". -/
def views : Views Bytes Bytes where
  clientSystemId _ := .ok c!"sys1"
  bankParameters _ := .err
  pinTan _ := .err
  userParameters _ := .err
  account b := .ok b
  announcement _ := .ok ()
  tanFunctions _ := .ok [(c!"999", some c!"einstufig"), (c!"910", some c!"chipTAN")]
  version _ := 1

/-- An answer with the given dialog ID, acknowledgements and further segments. -/
def reply (id acks rest : Bytes) : Outcome Body :=
  .ok (b!"HNHBK:1:3+000000000100+300+" ++ id ++ b!"+1'HIRMG:2:2+" ++ acks ++ b!"'" ++ rest ++ b!"HNHBS:9:1+1'", true)

/-- A bank giving the `n`-th answer to the `n`-th message. -/
def world (answer : Nat → Outcome Body) : World Bytes Bytes where
  decoders := decoders
  views := views
  controlRef _ := c!"1234"
  env n := ⟨fun _ => answer n, ⟨2020, 1, 2, 3, 4, 5, 0⟩, ⟨2020, 1, 2, 3, 4, 5, 0⟩, n⟩

/-- A bank that agrees to everything; dialog `n` is called "dia`n`". -/
def good : Nat → Outcome Body := fun n =>
  reply (b!"dia" ++ [48 + UInt8.ofNat n]) b!"0010::ok" b!"HISYN:3:4+sys1'HIUPD:4:6+1'"

/-- A bank that answers every message with an error. -/
def bad : Nat → Outcome Body := fun n => reply (b!"dia" ++ [48 + UInt8.ofNat n]) b!"9050::nein" []

/-- A new dialog with a PIN. -/
def fresh (a : Nat → Outcome Body) : St Bytes Bytes :=
  (setPin (world a) c!"secret" ⟨newPinTanDialog (world a) ⟨280, c!"10000000"⟩ c!"user" .fints300 [] [], 0, []⟩).2

/-- A dialog that has a client system ID already. -/
def known (a : Nat → Outcome Body) : St Bytes Bytes :=
  { fresh a with d := setClientSystemId c!"sys0" (fresh a).d }

/-- A job. -/
def work : Job := ⟨[some (tanRequestV6 c!"HKSAL")], .fints300⟩

/-- A job with a text that is not Latin-1. -/
def foreign : Job := ⟨[some (tanRequestV6 c!"€")], .fints300⟩

/-- Kind, number and dialog ID of the messages sent. -/
def trace (s : St Bytes Bytes) : List (Kind × Int × Str) :=
  s.sent.map fun e => (e.kind, e.wire.header.number, e.wire.header.dialogId)

theorem trace_good : trace (sendMessage (world good) work (fresh good)).2 =
    [(.sync, 1, c!"0"), (.end_, 2, c!"dia1"), (.init, 1, c!"0"), (.job, 2, c!"dia3"), (.end_, 3, c!"dia3")] := by
  decide +kernel

theorem trace_foreign : trace (sendMessage (world good) foreign (known good)).2 =
    [(.init, 1, c!"0"), (.end_, 3, c!"dia1")] := by
  decide +kernel

theorem trace_bad : trace (sendMessage (world bad) work (known bad)).2 = [(.init, 1, c!"0")] := by
  decide +kernel

theorem trace_twice :
    trace (runAll (world good) [.send work, .sync, .sendAnonymous work] (known good)) =
    [(.init, 1, c!"0"), (.job, 2, c!"dia1"), (.end_, 3, c!"dia1"), (.sync, 4, c!"dia1"), (.end_, 5, c!"dia4"),
     (.init, 1, c!"0"), (.job, 2, c!"dia6"), (.end_, 3, c!"dia6")] := by
  decide +kernel

/-- Success or failure of a call. -/
def verdict {β : Type} (r : Outcome β × St Bytes Bytes) : Outcome Unit := r.1.map' fun _ => ()

theorem job_lost : verdict (init (world good) (known good)) = .ok () ∧
    verdict (sendMessage (world fun n => if n = 2 then .err else good n) work (known good)) = .err ∧
    trace (sendMessage (world fun n => if n = 2 then .err else good n) work (known good)).2 =
      [(.init, 1, c!"0"), (.job, 2, c!"dia1"), (.end_, 3, c!"dia1")] := by
  decide +kernel

/-- A bank that warns. -/
def warning : Nat → Outcome Body := fun n => reply (b!"dia" ++ [48 + UInt8.ofNat n]) b!"3050::alt+0020::gut" []

theorem verdicts : verdict (sendMessage (world good) work (known good)) = .ok () ∧
    verdict (sendMessage (world bad) work (known bad)) = .err ∧
    verdict (sendMessage (world warning) work (known warning)) = .ok () := by
  decide +kernel

/-- A bank that forgets the HBCI version in its third answer. -/
def noVersion : Nat → Outcome Body := fun n =>
  if n = 3 then .ok (b!"HNHBK:1:3+000000000100++dia1+3'HIRMG:2:2+0010::ok'HNHBS:3:1+1'", true) else good n

theorem end_panics : verdict (sendMessage (world noVersion) work (known noVersion)) = .panic ∧
    (trace (sendMessage (world noVersion) work (known noVersion)).2).length = 3 := by
  decide +kernel

theorem crypto_lost : (runAll (world bad) [.sync] (known bad)).d.clientSystemId = c!"sys0" ∧
    (runAll (world bad) [.sync] (known bad)).d.crypto.clientSystemId = c!"0" ∧
    (known bad).d.crypto.clientSystemId = c!"sys0" := by
  decide +kernel

theorem accounts_twice : (runAll (world good) [.send work, .send work] (fresh good)).d.accounts =
    [b!"HIUPD:4:6+1'", b!"HIUPD:4:6+1'", b!"HIUPD:4:6+1'"] := by
  decide +kernel

/-- A bank that announces one security function. -/
def functions : Nat → Outcome Body := fun n =>
  reply (b!"dia" ++ [48 + UInt8.ofNat n]) b!"0010::ok+3920::Verfahren:910" b!"HITANS:3:6+1'"

theorem function_lost : (runAll (world functions) [.send work] (known functions)).d.sig.securityFn = c!"910" ∧
    (runAll (world functions) [.send work, .setPin c!"neu", .send work] (known functions)).d.sig.securityFn = c!"999" ∧
    (runAll (world functions) [.send work, .setPin c!"neu", .send work] (known functions)).d.securityFn = c!"910" := by
  decide +kernel

theorem sync_twice : trace (runAll (world bad) [.sync, .sync] (fresh bad)) = [(.sync, 1, c!"0"), (.sync, 2, c!"dia1")] := by
  decide +kernel

theorem sync_first : trace (runAll (world good) [.setPin c!"1234", .sync] (fresh good)) =
    [(.sync, 1, c!"0"), (.end_, 2, c!"dia1")] := by
  decide +kernel

theorem trace_anonymous : trace (sendAnonymousMessage (world good) work (fresh good)).2 =
    [(.init, 1, c!"0"), (.job, 2, c!"dia1"), (.end_, 3, c!"dia1")] := by
  decide +kernel

end Verif.Dialog.Sample

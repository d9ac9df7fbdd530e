import Verif.Client.Model

/-
/repo/client/client.go:217-237 and :365-379: information about accounts, and ways of access to
an institute.
-/

namespace Verif.Client

open GoLib Element Segment Message Domain Transport Dialog

variable {σ α β γ δ : Type}

/-- /repo/segment/account_information.go:13-42 `NewAccountInformationRequestSegmentV1`. -/
def informationSeg (account : AccountConnection) (all : Bool) : Seg :=
  newSegment 1 c!"HKKIF" 1 [some (accountConnectionDE account), some (.boolean all), none, none]

/-- /repo/client/client.go:220-237 `AccountInformation`.  The result is what is printed after
"Account Info: "; the method itself returns nil then. -/
def accountInformation (u : Setup σ α β γ δ) (c : Client) (account : AccountConnection) (all : Bool) (s : CSt σ α) :
    Outcome Bytes × CSt σ α :=
  match init u s with
  | (.err, t) => (.err, t)
  | (.panic, t) => (.panic, t)
  | (.ok (), t) =>
    let r := send u (jobOf c (informationSeg account all)) t
    (r.1.bind fun m =>
      match m.extractor.findSegment b!"HIKIF" with
      | some b => .ok b
      | none => .err, r.2)

/-- /repo/segment/communication_access.go:8-44 `NewCommunicationAccessRequestSegment`. -/
def communicationSeg (start stop : BankId) (maxEntries : Int) (mark : Str) : Seg :=
  newSegment 2 c!"HKKOM" 3 [some (bankIdentification start.country start.id), some (bankIdentification stop.country stop.id), some (.number maxEntries 4),
    if mark = [] then none else some (.alnum mark 35)]

/-- /repo/client/client.go:372-379 `AnonymousClient.CommunicationAccess`.  The result is the
answer, of which the method returns Go's representation. -/
def communicationAccess (u : Setup σ α β γ δ) (c : Client) (start stop : BankId) (maxEntries : Int) (s : CSt σ α) :
    Outcome (Decrypted σ) × CSt σ α :=
  let r := sendAnonymousMessage u.world ⟨[some (communicationSeg start stop maxEntries [])], c⟩ s.st
  (r.1, { s with st := r.2 })

end Verif.Client

import Verif.Segment.Requests

/-
Model of the requests the client offers constructors for but does not use itself:
segment/account_information.go from version 2 on and the second step of segment/tan.go.
-/

namespace Verif.Segment

open GoLib Element Time Domain

/-- /repo/segment/account_information.go:57-64 `AccountInformationRequestSegmentV2` and its copies for
versions 3 to 6 (:92-98, :127-133, :162-168, :197-203), which differ in the version and in the type of
the account element only. -/
structure InformationRequest where
  version : Int
  account : DE
  allAccounts : Bool
  mark : Option Str

/-- /repo/segment/account_information.go:48-55 `NewAccountInformationRequestSegmentV2` (and :13-20 for
version 1). -/
def newInformationRequest (version : Int) (account : AccountConnection) (allAccounts : Bool) : InformationRequest :=
  ⟨version, accountConnectionDE account, allAccounts, none⟩

/-- /repo/segment/account_information.go:83-90, 118-125, 153-160 and 188-195
`NewAccountInformationRequestSegmentV3` to `V6`. -/
def newSepaInformationRequest (version : Int) (account : InternationalConnection) (allAccounts : Bool) :
    InformationRequest :=
  ⟨version, internationalDE account, allAccounts, none⟩

/-- /repo/segment/account_information.go:79-81 `SetContinuationMark` (and :44-46, :114, :149, :184, :219). -/
def InformationRequest.setContinuationMark (r : InformationRequest) (mark : Str) : InformationRequest :=
  { r with mark := some mark }

/-- /repo/segment/account_information.go:65-77: the segment.  `MaxEntries` is never set. -/
def InformationRequest.seg (r : InformationRequest) : Seg :=
  newSegment 1 c!"HKKIF" r.version
    [some r.account, some (.boolean r.allAccounts), none, r.mark.map fun m => .alnum m 35]

/-- /repo/segment/tan.go:36-44 `NewTanRequestProcess2` with `elements()` (:73-82). -/
def tanRequestProcess2 (jobReference : Str) (anotherTANFollows : Bool) : Seg :=
  newSegment 1 c!"HKTAN" 1
    [some (.alnum c!"2" 1), none, some (.alnum jobReference 35), none, some (.boolean anotherTANFollows), none]

end Verif.Segment

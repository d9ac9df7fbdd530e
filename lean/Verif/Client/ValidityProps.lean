import Verif.Element.ValidityProps
import Verif.Client.Information
import Verif.Message.Keys

/-
C112 for what the library sends: the groups it makes have the number of elements they were
made with, and some of its own elements are never valid.
-/

namespace Verif.Client

open GoLib Element Segment Message Dialog
open Element.Spec (Within Sound Fits Unbroken)

/-! ## Specification -/

/-- The segments the library writes, envelope included, with any values in them. -/
inductive Spec.Written : Seg → Prop
  | identification (bank : BankId) (clientId systemId : Str) (required : Bool) :
      Written (identificationSeg bank clientId systemId required)
  | preparation (bpd upd language : Int) (name version : Str) : Written (preparationSeg bpd upd language name version)
  | synchronisation (v : Version) : Written (synchronisationSeg v)
  | dialogEnd (dialogId : Str) : Written (dialogEndSeg dialogId)
  | balance (version : Int) (account : AccountConnection) (all : Bool) : Written (newBalanceRequest version account all).seg
  | balanceFrom (version : Int) (account : AccountConnection) (all : Bool) (mark : Str) :
      Written ((newBalanceRequest version account all).setContinuationMark mark).seg
  | sepaBalance (version : Int) (account : InternationalConnection) (all : Bool) :
      Written (newSepaBalanceRequest version account all).seg
  | sepaBalanceFrom (version : Int) (account : InternationalConnection) (all : Bool) (mark : Str) :
      Written ((newSepaBalanceRequest version account all).setContinuationMark mark).seg
  | transactions (version : Int) (account : AccountConnection) (all : Bool) (now : Time.Civil) (tf : Domain.Timeframe) :
      Written ((newTransactionRequest version account all).setTransactionRange now tf).seg
  | transactionsFrom (version : Int) (account : AccountConnection) (all : Bool) (now : Time.Civil) (tf : Domain.Timeframe)
      (mark : Str) :
      Written (((newTransactionRequest version account all).setTransactionRange now tf).setContinuationReference mark).seg
  | status (version : Int) (start stop : Time.Civil) (maxEntries : Int) (mark : Str) :
      Written (newStatusRequest version start stop maxEntries mark)
  | tanV1 (referencing : Str) : Written (tanRequestV1 referencing)
  | tanV6 (referencing : Str) : Written (tanRequestV6 referencing)
  | information (account : AccountConnection) (all : Bool) : Written (informationSeg account all)
  | communication (start stop : BankId) (maxEntries : Int) (mark : Str) : Written (communicationSeg start stop maxEntries mark)
  | encryptionHeader (v : Version) (fn systemId : Str) (k : KeyName) (now : Time.Civil) :
      Written (encryptionHeader v fn systemId k now)
  | encryptedData (d : Bytes) : Written (encryptedData d)
  | signatureHeader (v : Version) (fn reference systemId : Str) (k : KeyName) (now : Time.Civil) :
      Written (signatureHeader v fn reference systemId k now)
  | signatureEnd (v : Version) (reference pin : Str) : Written (signatureEnd v reference pin)
  | header (h : MsgHeader) : Written h.seg
  | messageEnd (e : MsgEnd) : Written e.seg

/-- Every group inside the element has the number of elements it was made with. -/
def Spec.Counted (e : DE) : Prop := ∀ n es, Within (.group n es) e → es.length = n

/-! ## Lemmas -/

open Spec (Written Counted)

mutual
/-- The same as a test. -/
def counted : DE → Bool
  | .group n es => decide (es.length = n) && countedAll es
  | .array _ _ es => countedAll es
  | _ => true

/-- The test on some elements. -/
def countedAll : List (Option DE) → Bool
  | [] => true
  | none :: r => countedAll r
  | some e :: r => counted e && countedAll r
end

theorem countedAll_mem {es : List (Option DE)} (h : countedAll es = true) : ∀ c, some c ∈ es → counted c = true := by
  induction es with
  | nil => simp
  | cons o r ih =>
    cases o with
    | none => rw [countedAll] at h; intro c hc; exact ih h c (by simpa using hc)
    | some e =>
      rw [countedAll, Bool.and_eq_true] at h
      intro c hc
      rcases List.mem_cons.1 hc with hc | hc
      · cases hc; exact h.1
      · exact ih h.2 c hc

theorem counted_spec {e : DE} (h : counted e = true) : Counted e := by
  intro n es hw
  generalize hd : DE.group n es = d at hw
  induction hw with
  | self =>
    subst hd
    rw [counted, Bool.and_eq_true, decide_eq_true_iff] at h
    exact h.1
  | group hc _ ih =>
    rw [counted, Bool.and_eq_true] at h
    exact ih (countedAll_mem h.2 _ hc)
  | array hc _ ih =>
    rw [counted] at h
    exact ih (countedAll_mem h _ hc)

/-! ## C112 -/

/-- C112: whatever values it is given, the library makes every group it sends with the right
number of elements. -/
theorem C112_counted {s : Seg} (hs : Written s) : ∀ e, some e ∈ s.elements → Counted e := by
  intro e he
  apply counted_spec
  revert e
  apply countedAll_mem
  cases hs with
  | encryptionHeader v fn systemId k now => cases v <;> rfl
  | signatureHeader v fn reference systemId k now => cases v <;> rfl
  | signatureEnd v reference pin => cases v <;> rfl
  | synchronisation v => cases v <;> rfl
  | header h => cases h with | mk a b c d e f => cases f <;> rfl
  | status version start stop maxEntries mark => unfold newStatusRequest; split <;> rfl
  | communication start stop maxEntries mark =>
    by_cases h : mark = [] <;> simp [communicationSeg, h, newSegment, countedAll, counted, bankIdentification]
  | _ => rfl

example : Written (identificationSeg ⟨280, c!"37040044"⟩ c!"12345" c!"0" true) ∧
    (identificationSeg ⟨280, c!"37040044"⟩ c!"12345" c!"0" true).elements.length = 4 := ⟨.identification _ _ _ _, rfl⟩

/-- C112: the elements of an identification are valid exactly if the country has at most
three characters and the three IDs have at most thirty bytes and none of the four characters
blank, ampersand, line feed and carriage return. -/
theorem C112_identification (p : Printer) (bank : BankId) (clientId systemId : Str) (required : Bool) :
    (∀ e, some e ∈ (identificationSeg bank clientId systemId required).elements → e.isValid p = true) ↔
      (-100 < bank.country ∧ bank.country < 1000) ∧
        ∀ t ∈ [bank.id, clientId, systemId], Unbroken t ∧ strLen t ≤ 30 := by
  have hn : intIsValid bank.country (3 : Nat) = true ↔ -100 < bank.country ∧ bank.country < 1000 := by
    rw [narrow_iff]
    unfold Element.Spec.Narrow
    simp only [show Int.toNat ((3 : Nat) : Int) = 3 from rfl]
    norm_num
  have ha : ∀ t : Str, alnumIsValid t 30 = true ↔ Unbroken t ∧ strLen t ≤ 30 := by
    intro t
    rw [alnum_iff]
    constructor <;> rintro ⟨h1, h2⟩ <;> exact ⟨h1, by omega⟩
  have hb : (bankIdentification bank.country bank.id).isValid p =
      (intIsValid bank.country (3 : Nat) && (alnumIsValid bank.id 30 && true)) := by
    simp [bankIdentification, DE.isValid, DE.validAll, DE.validOpt]
  have hr : ∀ b : Bool, intIsValid (if b = true then 1 else 0) 1 = true := by
    intro b; cases b <;> decide
  simp only [identificationSeg, newSegment, List.mem_cons, Option.some.injEq, List.not_mem_nil, or_false,
    forall_eq_or_imp, forall_eq, hb, DE.isValid, Bool.and_eq_true, ha, hn, hr, and_true]
  tauto

example : ∀ e, some e ∈ (identificationSeg ⟨280, c!"37040044"⟩ c!"12345" c!"0" true).elements →
    e.isValid samplePrinter = true :=
  (C112_identification _ _ _ _ _).2 ⟨by decide, by
    intro t ht
    simp only [List.mem_cons, List.not_mem_nil, or_false] at ht
    rcases ht with rfl | rfl | rfl <;> exact ⟨by unfold Unbroken; decide, by decide⟩⟩

/-- C112: the library's own balance and transaction requests and its encrypted data contain
an element that is never valid, whatever the values: the flag "all accounts", and the data
itself, whose maximal length is negative. -/
theorem C112_own_invalid (p : Printer) :
    (∀ r : BalanceRequest, ∃ e, some e ∈ r.seg.elements ∧ e.isValid p = false) ∧
    (∀ r : TransactionRequest, ∃ e, some e ∈ r.seg.elements ∧ e.isValid p = false) ∧
    (∀ d : Bytes, ∃ e, some e ∈ (encryptedData d).elements ∧ e.isValid p = false) := by
  refine ⟨fun r => ⟨.boolean r.allAccounts, by simp [BalanceRequest.seg, newSegment], ?_⟩,
    fun r => ⟨.boolean r.allAccounts, by simp [TransactionRequest.seg, newSegment], ?_⟩,
    fun d => ⟨.binary d (-1), by simp [encryptedData, newSegment], ?_⟩⟩
  · rw [DE.isValid]; exact C11_bool_never_valid _
  · rw [DE.isValid]; exact C11_bool_never_valid _
  · rw [DE.isValid, binaryIsValid, decide_eq_false_iff_not]; omega

end Verif.Client

import Verif.Dialog.StateProps
import Verif.Segment.RequestProps

/-
C69 for a dialog: whatever happened before, no request for status information can be built.
-/

namespace Verif.Dialog

open GoLib Element Segment Message Domain Transport

variable {σ α : Type}

/-- Every ID the bank is known to support is longer than five bytes. -/
def LongIds (d : Dialog σ α) : Prop := ∀ p ∈ d.supportedSegments, 5 < utf8Length p.1

theorem supportedLoop_long : ∀ (bs : List Bytes) (ss : List (Str × Int)), supportedLoop bs = .ok ss → ∀ p ∈ ss, 5 < utf8Length p.1
  | [], ss, h => by
    simp only [supportedLoop, Outcome.ok.injEq] at h
    subst h
    simp
  | b :: bs, ss, h => by
    unfold supportedLoop at h
    split at h
    · simp at h
    · exact supportedLoop_long bs ss h
    · split at h
      · exact supportedLoop_long bs ss h
      · obtain ⟨r, h1, rfl⟩ := map_ok h
        intro p hp
        rcases List.mem_cons.1 hp with rfl | hp
        · simp only
          omega
        · exact supportedLoop_long bs r h1 p hp

theorem bind_lift {β γ : Type} {P : Dialog σ α → Prop} {o : Outcome β} {g : β → M σ α γ} (h : ∀ b, o = .ok b → Pres P (g b)) :
    Pres P ((M.lift o).bind g) := by
  intro s hs
  unfold M.bind M.lift
  cases o with
  | ok b => exact h b rfl s hs
  | err => exact hs
  | panic => exact hs

theorem parseAccounts_long (w : World σ α) : ∀ xs : List (Decoded σ), Pres LongIds (parseAccounts w xs)
  | [] => .lift _
  | _ :: xs => .bind (.lift _) fun _ => .bind (.modify fun _ h => h) fun _ => parseAccounts_long w xs

theorem parseBoth_long (w : World σ α) (m : Decrypted σ) : Pres LongIds (parseBoth w m) := by
  unfold parseBoth parseBankParameterData parseUserParameterData
  refine .bind ?_ fun _ => .bind ?_ fun _ => parseAccounts_long w _
  · split
    · exact .lift _
    · refine bind_lift fun ss hss => .bind (.modify fun _ _ => supportedLoop_long _ _ hss) fun _ => .bind (.lift _) fun _ =>
        .bind (.modify fun _ h => h) fun _ => .bind ?_ fun _ => .modify fun _ h => h
      unfold parsePinTan
      split
      · exact .lift _
      · exact .bind (.lift _) fun _ => .modify fun _ h => h
  · unfold parseUser
    split
    · exact .lift _
    · exact .bind (.lift _) fun _ => .modify fun _ h => h

theorem long_history (w : World σ α) (cs : List Call) (s : St σ α) (h : LongIds s.d) : LongIds (runAll w cs s).d := by
  refine Pres.all (P := LongIds) (fun c s h => Pres.callWith w ?_ ?_ (parseBoth_long w) ?_ ?_ ?_ ?_ c s h) cs _ h
  · intro d n h; exact h
  · intro d i h; exact h
  · intro d fn m _ h; exact h
  · intro d id h; exact h
  · intro d h; exact h
  · intro d pin s hs h
    subst hs
    exact h

/-- C69: after every history of a dialog, what it knows about the bank does not let the builder
produce a request for status information. -/
theorem C69_history (w : World σ α) (cs : List Call) (bank : BankId) (user : Str) (v : Version) (pn pv : Str) (n : Nat)
    (log : List (Sent σ)) (start stop : Time.Civil) (maxEntries : Int) (mark : Str) :
    (newBuilder (runAll w cs ⟨newPinTanDialog w bank user v pn pv, n, log⟩).d.supportedSegments).status start stop maxEntries
      mark = .err := by
  have h : LongIds (runAll w cs ⟨newPinTanDialog w bank user v pn pv, n, log⟩).d :=
    long_history w cs _ (fun p hp => by simp [newPinTanDialog] at hp)
  refine (builder_spec statusTable_iff _ c!"HIPRO" fun f => f start stop maxEntries mark).2.2 ?_
  intro x _ hm
  have hx := h _ hm
  simp only at hx
  exact absurd hx (by decide)

end Verif.Dialog

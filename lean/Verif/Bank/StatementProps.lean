import Verif.Bank.CarryLemmas
import Verif.Bank.Views
import Verif.Bank.BalanceProps

/-
C84: the statement a client gets from the bank's HIKAZ segments.
-/

namespace Verif.Bank

open GoLib Element Element.Spec Segment Segment.Spec Message Verif.Token.Spec

/-- `@length@data`. -/
def binaryOf (d : Bytes) : Bytes := b!"@" ++ natDec d.length ++ b!"@" ++ d

theorem binary_eq (d : Bytes) : binaryOf d = marshalBinary d := by
  simp [binaryOf, marshalBinary, List.append_assoc]

theorem binary_length {d : Bytes} (h : d.length ≤ 2 ^ 48) : (binaryOf d).length ≤ 2 ^ 49 := by
  have := natDec_length_le (n := d.length) (k := 19) (by omega) (by omega)
  simp only [binaryOf, List.length_append]
  have : b!"@".length = 1 := rfl
  omega

theorem seen_statement {v : Int} (hv : v = 5 ∨ v = 6 ∨ v = 7) (now : Time.Civil) (m : Bytes) :
    seen (clientViews now).statement c!"HIKAZ" v m =
      ((unmarshalStatement m).map' BankSeg.statement).bind (clientViews now).statement := by
  rcases hv with rfl | rfl | rfl <;> rfl

theorem binary_ne (x : Bytes) : binaryOf x ≠ [] := by simp [binaryOf]

theorem wire_statement {p r v : Int} (hp : IsInt p) (hr : IsInt r) (hv : v = 5 ∨ v = 6 ∨ v = 7) {d : Bytes} {u : Option Bytes}
    (hd : d.length ≤ 2 ^ 48) (hu : ∀ x, u = some x → x.length ≤ 2 ^ 48) :
    Wire ⟨c!"HIKAZ", p, v, some r⟩ (binaryOf d :: (u.map binaryOf).toList)
      (segmentBytes c!"HIKAZ" p v r (binaryOf d :: (u.map binaryOf).toList)) := by
  have hvi : IsInt v := by unfold IsInt; omega
  have hfld : ∀ x : Bytes, Field (binaryOf x) := fun x => by rw [binary_eq]; exact .one (marshalBinary_value x)
  refine wire_of_fields (id := c!"HIKAZ") (by decide) hp hvi hr (by decide) ?_ ?_ ?_
  · intro f hf
    cases u with
    | none => simp at hf; rw [hf]; exact hfld d
    | some x =>
      simp at hf
      rcases hf with rfl | rfl <;> exact hfld _
  · cases u with
    | none => simp [binary_ne]
    | some x => simp [binary_ne]
  · have := binary_length hd
    cases u with
    | none => simp; omega
    | some x => have := binary_length (hu x rfl); simp; omega

/-- C84: the client gets the booked transactions byte for byte, whatever they contain and
whatever is sent as unbooked. -/
theorem C84_booked {p r v : Int} (hp : IsInt p) (hr : IsInt r) (hv : v = 5 ∨ v = 6 ∨ v = 7) {d : Bytes}
    {u : Option Bytes} (hd : d.length ≤ 2 ^ 48) (hu : ∀ x, u = some x → x.length ≤ 2 ^ 48) (now : Time.Civil) :
    seen (clientViews now).statement c!"HIKAZ" v (segmentBytes c!"HIKAZ" p v r (binaryOf d :: (u.map binaryOf).toList)) =
      .ok d := by
  obtain ⟨hb, _, h2⟩ := generated_of_wire (wire_statement hp hr hv hd hu)
  rw [seen_statement hv]
  unfold unmarshalStatement
  rw [h2, field_at (p := binaryOf d) (a := d) rfl (binary_ne d) (by rw [binary_eq]; exact C07_roundtrip d hd)]
  cases u with
  | none => rw [(field_nil _ (Or.inl rfl)).2]; rfl
  | some x =>
    have : lastField (hb :: binaryOf d :: (Option.map binaryOf (some x)).toList) 2 unmarshalBinary = .ok (some x) :=
      lastField_at rfl (binary_ne x) (by
        show unmarshalBinary (binaryOf x) = _
        rw [binary_eq]; exact C07_roundtrip x (hu x rfl))
    simp only [Outcome.bind, this]
    rfl

/-- C84: if there are only unbooked transactions, the client panics. -/
theorem C84_unbooked_only {p r v : Int} (hp : IsInt p) (hr : IsInt r) (hv : v = 5 ∨ v = 6 ∨ v = 7) {u : Bytes}
    (hu : u.length ≤ 2 ^ 48) (now : Time.Civil) :
    seen (clientViews now).statement c!"HIKAZ" v (segmentBytes c!"HIKAZ" p v r [[], binaryOf u]) = .panic := by
  have hvi : IsInt v := by unfold IsInt; omega
  have hne : ∀ x : Bytes, binaryOf x ≠ [] := fun x => by simp [binaryOf]
  have hw : Wire ⟨c!"HIKAZ", p, v, some r⟩ [[], binaryOf u] _ :=
    wire_of_fields (id := c!"HIKAZ") (by decide) hp hvi hr (by decide) ?_ ?_ ?_
  · obtain ⟨hb, _, h2⟩ := generated_of_wire hw
    rw [seen_statement hv]
    unfold unmarshalStatement
    rw [h2, (field_nil _ (Or.inr rfl)).1]
    have : lastField [hb, [], binaryOf u] 2 unmarshalBinary = .ok (some u) :=
      lastField_at rfl (hne u) (by
        show unmarshalBinary (binaryOf u) = _
        rw [binary_eq]; exact C07_roundtrip u hu)
    simp only [Outcome.bind, this]
    rfl
  · intro f hf
    simp at hf
    rcases hf with rfl | rfl
    · exact .nil
    · rw [binary_eq]; exact .one (marshalBinary_value u)
  · simp [hne]
  · have := binary_length hu
    simp; omega

/-- Data with every character that has a meaning in HBCI, and a segment with unbooked
transactions only. -/
example :
    segmentBytes c!"HIKAZ" 4 6 3 [binaryOf b!":20:+'?@:x", binaryOf b!"y"] = b!"HIKAZ:4:6:3+@10@:20:+'?@:x+@1@y'" ∧
    seen (clientViews Time.zeroTime).statement c!"HIKAZ" 6 b!"HIKAZ:4:6:3+@10@:20:+'?@:x+@1@y'" = .ok b!":20:+'?@:x" ∧
    seen (clientViews Time.zeroTime).statement c!"HIKAZ" 6 b!"HIKAZ:4:6:3++@1@y'" = .panic := by
  decide +kernel

end Verif.Bank

import Verif.Message.Props
import Verif.Segment.Props
import Verif.Domain.Props
import Verif.Swift.StatementProps
import Verif.Crypto.IsoProps
import Verif.Dialog.Props

/-
Small operations of the API on the values of C18, C21, C53, C55 and C100.
-/

namespace Verif.Swift

open GoLib Spec

/-- C100: the signed balance of a tag that a bank wrote is its amount, negative exactly if the bank
marked it as a debit. -/
theorem C100_signed {L : Lib} (h1 : 1000 ≤ L.year) (h2 : L.year ≤ 9999) {id : Bytes} (hid : 58 ∉ id) {b : Balance}
    (h : b.Ok (L.year / 100 * 100)) {a : L.F} (ha : L.parseFloat (b.whole ++ b!"." ++ b.frac) = some a) :
    ∃ t, unmarshalBalance L (b!":" ++ id ++ b!":" ++ b.text) = .ok t ∧
      (b.mark = 67 → t.balance L = a) ∧ (b.mark = 68 → t.balance L = L.neg a) := by
  refine ⟨_, balance_read h1 h2 hid h ha, fun e => ?_, fun e => ?_⟩ <;> unfold BalanceTag.balance <;> simp [e]

example : ∃ a t, sampleLib.parseFloat b!"1000.00" = some a ∧
    unmarshalBalance sampleLib (b!":60F:" ++ ({ sampleStatement.opening with mark := 68 } : Balance).text) = .ok t ∧
    t.balance sampleLib = sampleLib.neg a := by
  have h : ({ sampleStatement.opening with mark := 68 } : Balance).Ok 2000 :=
    ⟨.inr rfl, sampleStatement_ok.opening.day, sampleStatement_ok.opening.currency, sampleStatement_ok.opening.whole,
      sampleStatement_ok.opening.frac⟩
  obtain ⟨a, ha⟩ := Option.isSome_iff_exists.1 sampleStatement_amounts.opening
  obtain ⟨t, h1, _, h2⟩ := C100_signed (L := sampleLib) (id := b!"60F") (by decide) (by decide) (by decide) h ha
  exact ⟨a, t, ha, h1, h2 rfl⟩

end Verif.Swift

namespace Verif.Domain

open GoLib Time

/-- C55: a caller that asks `IsZero` learns exactly whether plain JSON text was no timeframe, or one
from 1 January of year 1 to the same day. -/
theorem C55_json_zero (rest : Bytes → Option Bytes) (s : Bytes) (hs : PlainText s) :
    (unmarshalTimeframeJSON rest (34 :: (s ++ [34]))).isZero = true ↔
      ∀ a b x y, s = x ++ 44 :: y → IsoDay x a → IsoDay y b → Unset a ∧ Unset b := by
  have key : (∃ a b x y, s = x ++ 44 :: y ∧ IsoDay x a ∧ IsoDay y b ∧ unmarshalTimeframeJSON rest (34 :: (s ++ [34])) = ⟨a, b⟩) ∨
      ((¬ ∃ a b x y, s = x ++ 44 :: y ∧ IsoDay x a ∧ IsoDay y b) ∧ unmarshalTimeframeJSON rest (34 :: (s ++ [34])) = .zero) := by
    by_cases h : ∃ a b x y, s = x ++ 44 :: y ∧ IsoDay x a ∧ IsoDay y b
    · obtain ⟨a, b, x, y, h1, h2, h3⟩ := h
      exact .inl ⟨a, b, x, y, h1, h2, h3, (C55_json_text rest s hs).1 a b ⟨x, y, h1, h2, h3⟩⟩
    · exact .inr ⟨h, (C55_json_text rest s hs).2 h⟩
  unfold Timeframe.isZero
  rcases key with ⟨a, b, x, y, h1, h2, h3, h4⟩ | ⟨h1, h2⟩
  · have day : ∀ {v : Bytes} {t : Civil}, IsoDay v t → (Time.isZero t = true ↔ Unset t) := by
      rintro v t ⟨_, _, _, _, _, _, _, _, _, _, _, _, _, h⟩
      exact isZero_iff h
    rw [h4]
    simp only [Bool.and_eq_true, day h2, day h3]
    constructor
    · intro h a' b' x' y' e i1 i2
      have := (C55_json_text rest s hs).1 a' b' ⟨x', y', e, i1, i2⟩
      rw [h4] at this
      injection this with e1 e2
      rw [← e1, ← e2]
      exact h
    · exact fun h => h a b x y h1 h2 h3
  · rw [h2]
    refine iff_of_true (by decide) fun a b x y e i1 i2 => absurd ⟨a, b, x, y, e, i1, i2⟩ h1

example : (unmarshalTimeframeJSON (fun _ => none) b!"\"2024-02-29,2024-12-31\"").isZero = false ∧
    (unmarshalTimeframeJSON (fun _ => none) b!"\"2024-02-30,2024-12-31\"").isZero = true := by decide +kernel

end Verif.Domain

namespace Verif.Segment

open GoLib Element

/-- C21: the reference of a header can be changed exactly if it has one, and then nothing else
changes in what is written. -/
theorem C21_setReference (h : Header) (ref : Int) :
    (h.ref = none → h.setReference ref = .panic) ∧
    (h.ref ≠ none → ∃ h', h.setReference ref = .ok h' ∧ h'.referencing = ref ∧
      ∀ b, h'.marshal = .ok b → ∃ i, marshalText h.id = .ok i ∧
        b = i ++ [58] ++ marshalNumber h.position ++ [58] ++ marshalNumber h.version ++ [58] ++ marshalNumber ref) := by
  unfold Header.setReference
  cases e : h.ref with
  | none => simp
  | some r =>
    refine ⟨by simp, fun _ => ⟨_, rfl, rfl, fun b hb => ?_⟩⟩
    obtain ⟨i, h1, h2⟩ := C21_bytes hb
    exact ⟨i, h1, by simpa using h2⟩

example : ((newReferencingHeader c!"HIRMS" 3 2 4).setReference 5).bind Header.marshal = .ok b!"HIRMS:3:2:5" ∧
    (newHeader c!"HKSAL" 3 5).setReference 5 = .panic := by decide

end Verif.Segment

namespace Verif.Crypto

/-- C53: `SetPadBits` refuses exactly what is greater than 7.  Whatever it accepts that is not
negative, a full message is read again as it was, but the pad bits that are read are 0. -/
theorem C53_padBits {n e d : Nat} (hk : KeyPair n e d) (h2 : 19 ≤ Nat.size n)
    (hB : Nat.size n % 16 ≤ 1 ∨ 10 ≤ Nat.size n % 16) (c : Coder) (hc : c.enc = true) (hkey : c.key = ⟨n, e, none⟩)
    (bits : Int) (h0 : 0 ≤ bits) (msg : Bytes) (hlen : msg.length = (Nat.size n + 13) / 16) (rounds : Nat)
    (hr : (Nat.size n + 13) / 16 < rounds) :
    (c.setPadBits bits = .panic ↔ 7 < bits) ∧
    (bits ≤ 7 → ∃ c' s, c.setPadBits bits = .ok c' ∧ c'.padBits = bits ∧ c'.processBlock rounds msg 0 msg.length = some (.ok s, c') ∧
      ∃ c'', (c'.init false ⟨n, d, none⟩).processBlock rounds s 0 s.length = some (.ok msg, c'') ∧ c''.padBits = 0) := by
  unfold Coder.setPadBits
  constructor
  · split <;> simp <;> omega
  · intro h7
    rw [if_neg (by omega)]
    obtain ⟨s, h1, h3⟩ := C53_full hk h2 hB { c with padBits := bits } hc hkey ⟨h0, h7⟩ msg hlen rounds hr
    exact ⟨_, s, rfl, rfl, h1, _, h3, rfl⟩

example : KeyPair 68182003 11 2123 ∧ 19 ≤ Nat.size 68182003 ∧ 10 ≤ Nat.size 68182003 % 16 ∧ (Nat.size 68182003 + 13) / 16 = 2 ∧
    (Coder.mk ⟨68182003, 11, none⟩ true 0).setPadBits 8 = .panic ∧
    (Coder.mk ⟨68182003, 11, none⟩ true 0).setPadBits 4 = .ok ⟨⟨68182003, 11, none⟩, true, 4⟩ :=
  ⟨Sample.pair27, by decide +kernel, by decide +kernel, by decide +kernel, by decide, by decide⟩

end Verif.Crypto

namespace Verif.Message

open GoLib Element Segment Dialog

theorem end_bytes (e : MsgEnd) :
    e.seg.marshal = .ok (b!"HNHBS:" ++ itoa e.position ++ b!":1+" ++ itoa e.number ++ b!"'") := by
  have hl : Element.Spec.Latin1 c!"HNHBS" := latin1_of_all (by decide)
  have h := C13_bytes (s := e.seg) (hb := headerBytes (newHeader c!"HNHBS" e.position 1)) (ps := [itoa e.number])
    (init := [headerBytes (newHeader c!"HNHBS" e.position 1)]) (p := itoa e.number) (header_marshal _ hl)
    (by simp [MsgEnd.seg, newSegment, DE.marshalOpt, DE.marshal, marshalNumber]) ⟨0, by simp, by simp [itoa_ne_nil]⟩ (by
      intro h
      have := itoa_mem (List.mem_of_getLast? h)
      revert this
      simp [Token.Spec.Digit])
  rw [h]
  have e1 : enc (escape c!"HNHBS") = b!"HNHBS" := by decide
  have e2 : itoa 1 = b!"1" := by decide
  simp [headerBytes, newHeader, e1, e2]

/-- C18: a number that is set later goes into the header only: the message still ends with the number
it was made with, which every bank takes for an error if the two differ. -/
theorem C18_renumbered {m m' : BasicMessage} {n : Int} {b : Bytes} (hc : m.cache = []) (hm : (m.setMessageNumber n).marshal = .ok (b, m')) :
    m'.header.number = n ∧ b!"HNHBS:" ++ itoa m.end_.position ++ b!":1+" ++ itoa m.end_.number ++ b!"'" <:+ b ∧
    ∃ head, m'.header.seg.marshal = .ok head ∧ head <+: b := by
  unfold BasicMessage.setMessageNumber BasicMessage.marshal BasicMessage.setSize at hm
  cases hcon : m.content with
  | none => rw [hcon] at hm; simp at hm
  | some segs =>
    rw [hcon] at hm
    simp only at hm
    obtain ⟨m1, h1, h2⟩ := (Dialog.bind_eq_ok _ _ _).1 hm
    obtain ⟨b1, h3, h4⟩ := (map_eq_ok _ _ _).1 h1
    subst h4
    simp only [hc, if_true] at h2
    obtain ⟨b2, h5, h6⟩ := (map_eq_ok _ _ _).1 h2
    simp only [Prod.mk.injEq] at h6
    obtain ⟨rfl, rfl⟩ := h6
    unfold BasicMessage.bytes at h5
    obtain ⟨x1, g1, h5⟩ := (Dialog.bind_eq_ok _ _ _).1 h5
    obtain ⟨x2, _, h5⟩ := (Dialog.bind_eq_ok _ _ _).1 h5
    obtain ⟨x3, _, h5⟩ := (Dialog.bind_eq_ok _ _ _).1 h5
    obtain ⟨x4, _, h5⟩ := (Dialog.bind_eq_ok _ _ _).1 h5
    obtain ⟨x5, g5, rfl⟩ := (map_eq_ok _ _ _).1 h5
    rw [end_bytes] at g5
    injection g5 with g5
    subst g5
    exact ⟨rfl, ⟨_, rfl⟩, x1, g1, ⟨x2 ++ x3 ++ x4 ++ _, by simp only [List.append_assoc]; rfl⟩⟩

example : ∃ m', (sampleMessage.setMessageNumber 99).marshal =
    .ok (b!"HNHBK:1:3+000000000063+300+4711+99'HKEND:3:1+4711'HNHBS:-1:1+2'", m') := ⟨_, rfl⟩

end Verif.Message

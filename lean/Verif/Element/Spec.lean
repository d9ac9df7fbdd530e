import Verif.Token.Spec
import Verif.Time

/-
Specification vocabulary for data elements; nothing here mentions the model's
marshalling functions.
-/

namespace Verif.Element.Spec

open Verif.Token.Spec

/-- Text that ISO 8859-1 can represent. -/
def Latin1 (s : Str) : Prop := ∀ c ∈ s, c.toNat ≤ 255

/-- The characters that carry syntax. -/
def Special (c : Char) : Prop := c = '?' ∨ c = '@' ∨ c = '\'' ∨ c = ':' ∨ c = '+'

instance (c : Char) : Decidable (Special c) := by unfold Special; infer_instance

/-- Text starting with a zero, at least one more digit and a comma. -/
def LikeMalformedFloat (s : Str) : Prop :=
  ∃ ds w, s = '0' :: ds ++ ',' :: w ∧ ds ≠ [] ∧ ∀ c ∈ ds, '0' ≤ c ∧ c ≤ '9'

/-- The text denotes the integer: digits with an optional sign. -/
def Decimal (s : Bytes) (n : Int) : Prop :=
  ∃ ds, DigitString ds ∧
    (((s = ds ∨ s = 43 :: ds) ∧ n = (value ds : Int)) ∨ (s = 45 :: ds ∧ n = -(value ds : Int)))

/-- A 64 bit Go `int`. -/
def IsInt (n : Int) : Prop := -(2 ^ 63) ≤ n ∧ n < 2 ^ 63

/-- Gregorian leap years. -/
def LeapYear (y : Int) : Prop := 4 ∣ y ∧ (100 ∣ y → 400 ∣ y)

/-- The date exists in the Gregorian calendar. -/
def ExistingDate (y : Int) (m d : Nat) : Prop :=
  1 ≤ d ∧
    ((m ∈ [1, 3, 5, 7, 8, 10, 12] ∧ d ≤ 31) ∨ (m ∈ [4, 6, 9, 11] ∧ d ≤ 30) ∨
     (m = 2 ∧ (d ≤ 28 ∨ (d = 29 ∧ LeapYear y))))

/-- A time of day. -/
def TimeOfDay (h m s : Nat) : Prop := h < 24 ∧ m < 60 ∧ s < 60

/-- A decimal fraction of a second: nothing, or a comma or period and digits, in
nanoseconds. -/
def Fraction (v : Bytes) (ns : Nat) : Prop :=
  (v = [] ∧ ns = 0) ∨ ∃ c ds, v = c :: ds ∧ (c = 44 ∨ c = 46) ∧ DigitString ds ∧
    ns = value (ds.take 9) * 10 ^ (9 - ds.length)

/-- `out` is `ps` without its trailing empty parts. -/
def DropTrailing (ps out : List Bytes) : Prop :=
  ∃ k, ps = out ++ List.replicate k [] ∧ out.getLast? ≠ some []

/-- Bytes the parts need on the wire, one separator each. -/
def wireSize (ps : List Bytes) : Nat := (ps.map fun p => p.length + 1).sum

end Verif.Element.Spec

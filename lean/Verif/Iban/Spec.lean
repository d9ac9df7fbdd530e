import Verif.Token.Spec

/-
Specification vocabulary for IBANs (ISO 13616, ISO 7064 MOD 97-10).
-/

namespace Verif.Iban.Spec

open Verif.Token.Spec

/-- An upper case letter or a digit. -/
def IbanChar (b : Byte) : Prop := Digit b ∨ (65 ≤ b ∧ b ≤ 90)

/-- A letter of either case or a digit. -/
def IbanCharAnyCase (b : Byte) : Prop := IbanChar b ∨ (97 ≤ b ∧ b ≤ 122)

/-- Digits stand for themselves, A to Z for 10 to 35. -/
def charValue (b : Byte) : Nat := if b ≤ 57 then b.toNat - 48 else b.toNat - 55

/-- A digit takes one decimal place, a letter two. -/
def weight (b : Byte) : Nat := if b ≤ 57 then 10 else 100

/-- The number an alphanumeric string stands for. -/
def number (s : Bytes) : Nat := s.foldl (fun n b => n * weight b + charValue b) 0

/-- `s` with a blank after every fourth character. -/
inductive Grouped : Bytes → Bytes → Prop where
  | last {s : Bytes} : s.length ≤ 4 → Grouped s s
  | more {a r out : Bytes} : a.length = 4 → r ≠ [] → Grouped r out → Grouped (a ++ r) (a ++ 32 :: out)

end Verif.Iban.Spec

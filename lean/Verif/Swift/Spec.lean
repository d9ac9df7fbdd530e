import Verif.Token.Spec

/-
What SWIFT statements look like, stated without reference to the lexer.
-/

namespace Verif.Swift.Spec

open Token.Spec (Digit DigitString)

/-- An ASCII capital letter. -/
def Upper (b : Byte) : Prop := 65 ≤ b.toNat ∧ b.toNat ≤ 90

/-- A tag's identifier: a colon (which may be missing), digits, a capital letter (which may
be missing), and a colon. -/
def TagId (v : Bytes) : Prop :=
  ∃ colon ds letter, v = colon ++ ds ++ letter ++ [58] ∧ (colon = [] ∨ colon = [58]) ∧ DigitString ds ∧
    (letter = [] ∨ ∃ c, letter = [c] ∧ Upper c)

/-- Line breaks that end the value of a tag: what follows looks like the start of another tag,
or like the end of the message. -/
def EndsValue (rest : Bytes) : Prop :=
  ∃ r, rest = [13, 10] ++ r ∧
    ((∃ d x y, r = 58 :: d :: x :: y ∧ Digit d) ∨ (∃ x, r = 45 :: 58 :: x) ∨ (∃ x, r = 45 :: 13 :: 10 :: x) ∨ r = [45])

/-- Digits, a comma, and possibly more digits. -/
def Decimal (v : Bytes) : Prop := ∃ ds es, v = ds ++ 44 :: es ∧ DigitString ds ∧ ∀ b ∈ es, Digit b

/-- Capital letters and digits only. -/
def Plain (v : Bytes) : Prop := ∀ b ∈ v, Upper b ∨ Digit b

/-- What is before the first carriage return. -/
def firstLine (v : Bytes) : Bytes := v.takeWhile (fun b => b != 13)

/-- A tag's value that is read as it is: there is no NUL, it does not start with a carriage
return, no line break in it looks like the end of the value (given that a line break follows
the value), and if it has several lines, then the first is not just capital letters and
digits, nor a decimal number. -/
structure Value (v : Bytes) : Prop where
  noNul : 0 ∉ v
  head : v.head? ≠ some 13
  inner : ∀ a b, v = a ++ b → b ≠ [] → ¬ EndsValue (b ++ [13, 10])
  lines : 13 ∈ v → ¬ Plain (firstLine v) ∧ ¬ Decimal (firstLine v)

/-- A tag as banks send it: the identifier starts with a colon. -/
structure Tag where
  id : Bytes
  value : Bytes

def Tag.Ok (t : Tag) : Prop := t.id.head? = some 58 ∧ TagId t.id ∧ Value t.value

/-- A message on the wire: each tag on a new line, and a line with a dash. -/
def wire (tags : List Tag) : Bytes := (tags.map (fun t => [13, 10] ++ t.id ++ t.value)).flatten ++ [13, 10, 45]

end Verif.Swift.Spec

import Verif.Token.Lexer

/-
Lexical classes of HBCI, stated without reference to the lexer's functions (only
the type of tokens is shared).
-/

namespace Verif.Token.Spec

/-- An ASCII digit. -/
def Digit (b : Byte) : Prop := 48 ≤ b.toNat ∧ b.toNat ≤ 57

/-- One of `+`, `'`, `:`. -/
def Delim (b : Byte) : Prop := b = 43 ∨ b = 39 ∨ b = 58

/-- A character that may follow the escape character: `+ ' : ? @`. -/
def Escapable (b : Byte) : Prop := Delim b ∨ b = 63 ∨ b = 64

/-- Digits only, at least one. -/
def DigitString (v : Bytes) : Prop := v ≠ [] ∧ ∀ b ∈ v, Digit b

/-- `0`, or digits without a leading zero. -/
def Numeric (v : Bytes) : Prop := DigitString v ∧ (v = [48] ∨ v.head? ≠ some 48)

/-- At least two digits, the first of which is zero. -/
def LeadingZero (v : Bytes) : Prop := ∃ ds, v = 48 :: ds ∧ DigitString ds

/-- A number, a comma, and possibly more digits. -/
def Float (v : Bytes) : Prop :=
  ∃ n ds, v = n ++ 44 :: ds ∧ Numeric n ∧ ∀ b ∈ ds, Digit b

/-- The number a digit string denotes, from the last digit upwards. -/
def value : Bytes → Nat
  | [] => 0
  | d :: ds => (d.toNat - 48) * 10 ^ ds.length + value ds

/-- `@n@` followed by exactly `n` arbitrary bytes. -/
def Binary (v : Bytes) : Prop :=
  ∃ ds payload, v = 64 :: ds ++ 64 :: payload ∧ DigitString ds ∧ payload.length = value ds

/-- Text in which every delimiter, `?` is preceded by the escape
character `?`, which itself only stands before escapable characters; no NUL. -/
inductive Escaped : Bytes → Prop where
  | nil : Escaped []
  | plain {c : Byte} {v : Bytes} : ¬ Delim c → c ≠ 63 → c ≠ 0 → Escaped v → Escaped (c :: v)
  | esc {c : Byte} {v : Bytes} : Escapable c → Escaped v → Escaped (63 :: c :: v)

/-- Escaped text that is not a number of any kind and does not start like
binary data. -/
def Alnum (v : Bytes) : Prop :=
  v ≠ [] ∧ Escaped v ∧ v.head? ≠ some 64 ∧ ¬ DigitString v ∧ ¬ Float v

/-- The text contains a line break character. -/
def HasLineBreak (v : Bytes) : Prop := 10 ∈ v ∨ 13 ∈ v

/-- A zero, at least one more digit, and a comma, whatever follows. -/
def MalformedFloat (v : Bytes) : Prop := ∃ ds w, v = 48 :: ds ++ 44 :: w ∧ DigitString ds

/-- The bytes of one data element on the wire: binary data, or escaped text that
does not start like binary data or like a malformed number. -/
def Value (v : Bytes) : Prop :=
  Binary v ∨ (v ≠ [] ∧ Escaped v ∧ v.head? ≠ some 64 ∧ ¬ MalformedFloat v)

/-- Concatenated values of tokens. -/
def values (ts : List Token) : Bytes := (ts.map (·.val)).flatten

/-- Every token stands where the values before it end. -/
def Placed (ts : List Token) : Prop :=
  ∀ before t after, ts = before ++ t :: after → t.pos = (values before).length

end Verif.Token.Spec

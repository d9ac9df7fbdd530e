/-
Go primitives shared by all parts of the model.
-/

namespace Verif

/-- A Go `byte`. -/
abbrev Byte := UInt8

/-- A Go `[]byte` (value semantics: the model never mutates a slice in place). -/
abbrev Bytes := List Byte

/-- A Go string holding text, as its sequence of Unicode scalar values.
Simplification: Go strings with invalid UTF-8 are not represented. -/
abbrev Str := List Char

/-- Result of a Go call that may return a non-nil `error` or panic. -/
inductive Outcome (α : Type) where
  | ok (a : α)
  | err
  | panic
  deriving DecidableEq, Repr

namespace Outcome

/-- Sequencing: errors and panics propagate. -/
@[simp] def bind {α β : Type} : Outcome α → (α → Outcome β) → Outcome β
  | ok a, f => f a
  | err, _ => err
  | panic, _ => panic

instance : Monad Outcome where
  pure := ok
  bind := bind

/-- Mapping a function over the value. -/
@[simp] def map' {α β : Type} (f : α → β) : Outcome α → Outcome β
  | ok a => ok (f a)
  | err => err
  | panic => panic

/-- An `Option` whose `none` is a Go error. -/
@[simp] def ofOption {α : Type} : Option α → Outcome α
  | some a => ok a
  | none => err

@[simp] theorem pure_eq {α : Type} (a : α) : (pure a : Outcome α) = ok a := rfl
@[simp] theorem bind_ok {α β : Type} (a : α) (f : α → Outcome β) : (ok a >>= f) = f a := rfl
@[simp] theorem bind_err {α β : Type} (f : α → Outcome β) : ((err : Outcome α) >>= f) = err := rfl
@[simp] theorem bind_panic {α β : Type} (f : α → Outcome β) :
    ((panic : Outcome α) >>= f) = panic := rfl

end Outcome

/-- Statements about every byte are decidable (256 cases, all of them). -/
instance decidableForallByte {P : UInt8 → Prop} [DecidablePred P] : Decidable (∀ b, P b) :=
  decidable_of_iff (∀ n : Fin 256, P (UInt8.ofFin n))
    ⟨fun h b => by have := h b.toFin; simpa using this, fun h n => h _⟩

/-! ## Literals -/

open Lean in
/-- `b!"AB"` is the byte list `[65, 66]` (characters up to U+00FF). -/
macro:max "b!" s:str : term => do
  let elems ← s.getString.toList.toArray.mapM fun c => do
    let n := Syntax.mkNumLit (toString c.toNat)
    `(($n : UInt8))
  `(([$elems,*] : List UInt8))

open Lean in
/-- `c!"AB"` is the character list `['A', 'B']`. -/
macro:max "c!" s:str : term => do
  let elems := s.getString.toList.toArray.map fun c => (Syntax.mkCharLit c)
  `(([$elems,*] : List Char))

end Verif

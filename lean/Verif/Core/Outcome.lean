/-!
# Outcomes

`Outcome α` is the result of running a piece of C++: either a value or undefined behaviour.
Undefined behaviour is a separate constructor and never equal to a value, so a theorem of the form
`f x = .ok v` also says that running `f` on `x` is defined.

There is no single place in `/repo` this corresponds to; it is the semantic domain of the model.
-/

namespace Uavcan

/-- The kinds of undefined behaviour the modelled code can run into. -/
inductive UB where
  /-- a signed operation whose result does not fit its (promoted) type -/
  | signedOverflow
  /-- `std::abs` of the most negative value of its parameter type -/
  | absOfMin
  /-- a read or write outside an array -/
  | outOfBounds
  /-- a null pointer is dereferenced -/
  | nullDeref
  /-- bytes that are not a pointer are used as one -/
  | wildPointer
  /-- a loop without a fixed number of iterations that never exits -/
  | nonTermination
  /-- integer division by zero -/
  | divByZero
  /-- not undefined behaviour: a `std::size_t` wrapped around, which the model does not follow further -/
  | sizeWrap
  deriving DecidableEq, Repr

/-- A value or undefined behaviour. -/
inductive Outcome (α : Type u) where
  | ok (value : α)
  | ub (reason : UB)
  deriving DecidableEq, Repr

namespace Outcome

/-- Sequencing: undefined behaviour of the first part is undefined behaviour of the whole. -/
@[simp] def bind {α : Type u} {β : Type v} (x : Outcome α) (f : α → Outcome β) : Outcome β :=
  match x with
  | ok a => f a
  | ub r => ub r

instance : Monad Outcome where
  pure := ok
  bind := bind

/-- The behaviour is defined. -/
def Defined {α : Type u} (x : Outcome α) : Prop := ∃ a, x = ok a

/-- The behaviour is undefined. -/
def Undefined {α : Type u} (x : Outcome α) : Prop := ∃ r, x = ub r

@[simp] theorem pure_eq {α : Type u} (a : α) : (pure a : Outcome α) = ok a := rfl
@[simp] theorem ok_bind {α β : Type u} (a : α) (f : α → Outcome β) : (ok a >>= f) = f a := rfl
@[simp] theorem ub_bind {α β : Type u} (r : UB) (f : α → Outcome β) : (ub r >>= f) = ub r := rfl
@[simp] theorem map_ok {α β : Type u} (a : α) (f : α → β) : (f <$> (ok a : Outcome α)) = ok (f a) := rfl
@[simp] theorem map_ub {α β : Type u} (r : UB) (f : α → β) : (f <$> (ub r : Outcome α)) = ub r := rfl

theorem not_defined_iff {α : Type u} (x : Outcome α) : ¬ x.Defined ↔ x.Undefined := by
  cases x with
  | ok a => simp [Defined, Undefined]
  | ub r => simp [Defined, Undefined]

theorem bind_eq_ok {α β : Type u} {x : Outcome α} {f : α → Outcome β} {b : β} :
    (x >>= f) = ok b ↔ ∃ a, x = ok a ∧ f a = ok b := by
  cases x <;> simp

end Outcome
end Uavcan

/-!
# How a C++ call can end

Language layer; not a part of the repository.  A call returns, throws, or has undefined behaviour.
Most of the library throws a *pointer* (`throw new std::invalid_argument(..)`), which `catch (std::exception&)`
does not catch; `byPointer` records that.
-/

/-- Exception classes used by the library. -/
inductive ExnKind where
  | invalidArgument
  | outOfRange
  | lengthError
  deriving DecidableEq, Repr

/-- A thrown exception: its class and whether it is thrown as a pointer. -/
structure Exn where
  kind : ExnKind
  byPointer : Bool
  deriving DecidableEq, Repr

/-- Result of a call. -/
inductive Outcome (α : Type) where
  | ok (a : α)
  | throw (e : Exn)
  | ub

namespace Outcome

/-- Sequencing: an exception or undefined behaviour ends the computation. -/
@[simp] def bind {α β : Type} : Outcome α → (α → Outcome β) → Outcome β
  | ok a, f => f a
  | throw e, _ => throw e
  | ub, _ => ub

instance : Monad Outcome where
  pure := ok
  bind := bind

@[simp] theorem pure_eq {α : Type} (a : α) : (pure a : Outcome α) = ok a := rfl
@[simp] theorem ok_bind {α β : Type} (a : α) (f : α → Outcome β) : (ok a >>= f) = f a := rfl
@[simp] theorem throw_bind {α β : Type} (e : Exn) (f : α → Outcome β) : (throw e >>= f) = throw e := rfl
@[simp] theorem ub_bind {α β : Type} (f : α → Outcome β) : (ub >>= f) = ub := rfl

theorem bind_eq_ok {α β : Type} {x : Outcome α} {f : α → Outcome β} {b : β} :
    (x >>= f) = ok b ↔ ∃ a, x = ok a ∧ f a = ok b := by
  cases x <;> simp

@[simp] theorem ok_inj {α : Type} {a b : α} : ok a = ok b ↔ a = b :=
  ⟨fun h => by injection h, fun h => by rw [h]⟩

/-- `throw new std::invalid_argument(..)` -/
def throwNewInvalid {α : Type} : Outcome α := throw ⟨.invalidArgument, true⟩
/-- `throw new std::out_of_range(..)` -/
def throwNewRange {α : Type} : Outcome α := throw ⟨.outOfRange, true⟩

end Outcome

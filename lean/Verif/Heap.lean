import Verif.Color
import Verif.SpaceDef

/-!
# Objects in memory

Language layer.  The library passes colours, colour space definitions, white points and gamma curves by pointer; `none` is the null pointer.
`World` holds everything but the colours.  Colours are numbered in the order in which they were created; nothing is ever
freed (the library never calls `delete` on a colour).  Not modelled: dangling pointers into `World`.
-/

open Outcome

/-- Colour space definitions, white points and gamma curves in memory. -/
structure World where
  parts : PartStore
  gammas : Nat → Gamma
  whites : WhiteStore
  spaces : Nat → SpaceDef

namespace World

/-- `*p` for a pointer to a colour space definition. -/
def space (w : World) : Option Nat → Outcome SpaceDef
  | none => ub
  | some s => ok (w.spaces s)

/-- `*p` for a pointer to a white point. -/
def white (w : World) : Option Nat → Outcome WhitePoint
  | none => ub
  | some s => ok (w.whites s)

/-- `*p` for a pointer to a gamma curve. -/
def gamma (w : World) : Option Nat → Outcome Gamma
  | none => ub
  | some s => ok (w.gammas s)

end World

/-- A pointer to a colour. -/
abbrev Ptr := Option Nat

/-- The memory of the program. -/
structure Heap where
  world : World
  colors : List Color

/-- A program over the memory: how it ends and the memory it leaves (also when it throws). -/
def Prog (α : Type) := Heap → Outcome α × Heap

namespace Prog

/-- Sequencing. -/
def bind {α β : Type} (p : Prog α) (f : α → Prog β) : Prog β := fun h =>
  match p h with
  | (ok a, h') => f a h'
  | (.throw e, h') => (.throw e, h')
  | (.ub, h') => (.ub, h')

instance : Monad Prog where
  pure a := fun h => (ok a, h)
  bind := bind

theorem bind_def {α β : Type} (p : Prog α) (f : α → Prog β) (h : Heap) : (p >>= f) h =
    match p h with
    | (ok a, h') => f a h'
    | (.throw e, h') => (.throw e, h')
    | (.ub, h') => (.ub, h') := rfl

@[simp] theorem pure_run {α : Type} (a : α) (h : Heap) : (pure a : Prog α) h = (ok a, h) := rfl

/-- A computation that does not touch the memory. -/
def lift {α : Type} (o : Outcome α) : Prog α := fun h => (o, h)

/-- Everything but the colours. -/
def world : Prog World := fun h => (ok h.world, h)

/-- `*p` -/
def load (p : Ptr) : Prog Color := fun h =>
  match p with
  | none => (.ub, h)
  | some i => match h.colors[i]? with
    | none => (.ub, h)
    | some c => (ok c, h)

/-- `*p = c` -/
def store (p : Ptr) (c : Color) : Prog Unit := fun h =>
  match p with
  | none => (.ub, h)
  | some i => if i < h.colors.length then (ok (), { h with colors := h.colors.set i c }) else (.ub, h)

/-- `new` -/
def alloc (c : Color) : Prog Ptr := fun h => (ok (some h.colors.length), { h with colors := h.colors ++ [c] })

/-- `throw new std::invalid_argument(..)` -/
def throwNewInvalid {α : Type} : Prog α := lift Outcome.throwNewInvalid

/-- A function that reads one colour and creates another. -/
def map (f : World → Color → Outcome Color) (p : Ptr) : Prog Ptr := do
  let c ← load p
  let w ← world
  let r ← lift (f w c)
  alloc r

end Prog

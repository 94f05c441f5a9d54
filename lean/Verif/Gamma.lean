import Verif.Float
import Verif.Outcome

/-!
# Gamma curves (ColorMagic/spaces/gamma.h)

Parts are shared by pointer (`gamma` stores `gamma_part*`), so they live in a store.  Not modelled: reinterpreting a `std::function` as a
`long` (gamma.h:141-146, used by `operator==` of parts only), functions that throw or have side effects, dangling pointers.
-/

open Outcome

/-- gamma.h:18-157 `gamma_part`: an optional function and an upper border. -/
structure GammaPart where
  fn : Option (Fl → Fl)
  border : Fl

/-- gamma.h:22 `gamma_part()` -/
noncomputable def GammaPart.default : GammaPart := ⟨none, 1⟩

/-- gamma.h:30 `gamma_part(function, upper_border)` -/
def GammaPart.make (f : Fl → Fl) (border : Fl) : GammaPart := ⟨some f, border⟩

/-- The parts in memory. -/
abbrev PartStore := Nat → GammaPart

/-- What the C++ standard says of `std::sort` with `operator<` of a key: a permutation, ascending if the keys are comparable.  The order of equal
keys is up to the implementation. -/
class StdSort where
  run : (Nat → Fl) → List Nat → List Nat
  perm : ∀ key l, (run key l).Perm l
  sorted : ∀ key l, (∀ p ∈ l, key p ≠ .nan) → (run key l).Pairwise fun a b => key a ≤ key b

/-- gamma.h:164-368 `gamma`: two lists of part pointers. -/
structure Gamma where
  parts : List (Option Nat)
  inv : List (Option Nat)

namespace Gamma
variable [StdSort]

/-- The pointers of a list without null pointers. -/
def pointers : List (Option Nat) → Option (List Nat)
  | [] => some []
  | none :: _ => none
  | some p :: l => (pointers l).map (p :: ·)

open Classical in
/-- gamma.h:353-362 `sort_gamma_parts`, `sort_inverse_gamma_parts`.  With at least two elements the comparison dereferences every pointer; a NaN
border together with two different borders is not a strict weak order. -/
noncomputable def sort (st : PartStore) (l : List (Option Nat)) : Outcome (List (Option Nat)) :=
  if l.length < 2 then ok l else
  match pointers l with
  | none => ub
  | some ps =>
    if (∃ p ∈ ps, (st p).border = .nan) ∧ (∃ p ∈ ps, ∃ q ∈ ps, (st p).border < (st q).border) then ub
    else ok ((StdSort.run (fun p => (st p).border) ps).map some)

/-- gamma.h:167 `gamma()` -/
def empty : Gamma := ⟨[], []⟩

/-- gamma.h:174-178 constructor -/
noncomputable def construct (st : PartStore) (g ig : List (Option Nat)) : Outcome Gamma := do
  let a ← sort st g
  let b ← sort st ig
  ok ⟨a, b⟩

/-- gamma.h:181-187 copy constructor -/
noncomputable def copy (st : PartStore) (o : Gamma) : Outcome Gamma := construct st o.parts o.inv

/-- gamma.h:199-209 assignment between different objects -/
noncomputable def assign (st : PartStore) (_this o : Gamma) : Outcome Gamma := construct st o.parts o.inv

/-- gamma.h:212-235 `operator==`: compares the part *pointers*. -/
def eq (a b : Gamma) : Prop := a.parts = b.parts ∧ a.inv = b.inv

/-- gamma.h:279-283 -/
noncomputable def addPart (st : PartStore) (g : Gamma) (p : Option Nat) : Outcome Gamma := do
  let a ← sort st (g.parts ++ [p])
  ok { g with parts := a }

/-- gamma.h:302-306 -/
noncomputable def addInvPart (st : PartStore) (g : Gamma) (p : Option Nat) : Outcome Gamma := do
  let b ← sort st (g.inv ++ [p])
  ok { g with inv := b }

/-- gamma.h:286-289: the function is declared to return `bool` and has no return statement. -/
def removePart (_g : Gamma) (_position : Nat) : Outcome Gamma := ub

/-- gamma.h:309-312: likewise. -/
def removeInvPart (_g : Gamma) (_position : Nat) : Outcome Gamma := ub

/-- gamma.h:292-296 -/
noncomputable def setParts (st : PartStore) (g : Gamma) (l : List (Option Nat)) : Outcome Gamma := do
  let a ← sort st l
  ok { g with parts := a }

/-- gamma.h:315-319 -/
noncomputable def setInvParts (st : PartStore) (g : Gamma) (l : List (Option Nat)) : Outcome Gamma := do
  let b ← sort st l
  ok { g with inv := b }

omit [StdSort] in
/-- gamma.h:322-334 and 337-349: the loop over the parts. -/
noncomputable def pick (st : PartStore) : List (Option Nat) → Fl → Fl
  | [], x => x
  | none :: l, x => pick st l x
  | some p :: l, x =>
    match (st p).fn with
    | none => pick st l x
    | some f => if x ≤ (st p).border then f x else pick st l x

omit [StdSort] in
/-- gamma.h:322-334 `gamma_correction` -/
noncomputable def correct (st : PartStore) (g : Gamma) (x : Fl) : Fl := pick st g.parts x

omit [StdSort] in
/-- gamma.h:337-349 `inverse_gamma_correction` -/
noncomputable def inverse (st : PartStore) (g : Gamma) (x : Fl) : Fl := pick st g.inv x

end Gamma

/-! ### Presets -/

/-- gamma.h:375-483 `gamma_presets`. -/
inductive GammaPreset where
  | g1_8 | g2_2 | g2_6 | g2_8 | sRGB | adobe | romm | uhdtv
  deriving DecidableEq

namespace GammaPreset
open Fl
variable [FloatModel]

/-- The parts pushed to `g` (gamma.h:379-481). -/
noncomputable def parts : GammaPreset → List GammaPart
  | g1_8 => [.make (fun x => powf x (1 / lit (9/5))) 1]
  | g2_2 => [.make (fun x => powf x (1 / lit (11/5))) 1]
  | g2_6 => [.make (fun x => powf x (1 / lit (13/5))) 1]
  | g2_8 => [.make (fun x => powf x (1 / lit (14/5))) 1]
  | sRGB => [.make (fun x => lit (12.92) * x) (lit 0.0031308),
      .make (fun x => lit 1.055 * powf x (1 / lit (12/5)) - lit 0.055) 1]
  | adobe => [.make (fun x => powf x (1 / fin 2.19921875)) 1]
  | romm => [.make (fun x => 16 * x) (lit 0.001953), .make (fun x => powf x (1 / lit (9/5))) 1]
  | uhdtv => [.make (fun x => x / fin 4.5) (lit 0.081),
      .make (fun x => powf ((x + lit 0.099) / lit 1.099) (1 / lit 0.45)) 1]

/-- The parts pushed to `ig` (gamma.h:379-481). -/
noncomputable def invParts : GammaPreset → List GammaPart
  | g1_8 => [.make (fun x => powf x (lit (9/5))) 1]
  | g2_2 => [.make (fun x => powf x (lit (11/5))) 1]
  | g2_6 => [.make (fun x => powf x (lit (13/5))) 1]
  | g2_8 => [.make (fun x => powf x (lit (14/5))) 1]
  | sRGB => [.make (fun x => x / lit 12.92) (lit 0.04045),
      .make (fun x => powf ((x + lit 0.055) / lit 1.055) (lit (12/5))) 1]
  | adobe => [.make (fun x => powf x (fin 2.19921875)) 1]
  | romm => [.make (fun x => x / 16) (lit 0.001953), .make (fun x => powf x (lit (9/5))) 1]
  | uhdtv => [.make (fun x => fin 4.5 * x) (lit 0.018053968510807),
      .make (fun x => lit 1.099 * powf x (lit 0.45) - lit 0.099) 1]

/-- `new gamma_part(..)` for each part: consecutive free addresses from `next`. -/
def allocParts (st : PartStore) (next : Nat) : List GammaPart → PartStore
  | [] => st
  | p :: l => allocParts (Function.update st next p) (next + 1) l

/-- The addresses used by `allocParts`. -/
def addresses (next n : Nat) : List (Option Nat) := (List.range' next n).map some

/-- gamma.h:379-481: the store and the object after calling the preset function with free memory at `next`. -/
noncomputable def create [StdSort] (p : GammaPreset) (st : PartStore) (next : Nat) : PartStore × Outcome Gamma :=
  let st' := allocParts st next (p.parts ++ p.invParts)
  (st', Gamma.construct st' (addresses next p.parts.length) (addresses (next + p.parts.length) p.invParts.length))

end GammaPreset

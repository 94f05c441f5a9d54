import Verif.SessionSpec

/-!
# Memory

The specification for `Verif/Props/Memory.lean`: how many objects a conversion makes, and how many colours a program asks for.  The library never frees an object.
-/

open Outcome Fl Prog SessionSpec

namespace MemorySpec

/-- Number of objects made by a conversion from the given type to RGB_TRUE, RGB_DEEP, GREY_TRUE, GREY_DEEP, CMYK, HSI, HSV, HSL, HCY, XYZ, XYY, CIELUV, LAB, LCH_AB and LCH_UV,
counted in color_converter.cpp: one for the result, and one for every stop on the way. -/
def stops : ColorType → List Nat
  | .rgbTrue => [0, 1, 1, 2, 2, 2, 2, 2, 2, 2, 3, 3, 3, 4, 4]
  | .rgbDeep => [1, 0, 2, 1, 1, 1, 1, 1, 1, 1, 2, 2, 2, 3, 3]
  | .greyTrue => [1, 1, 0, 1, 2, 2, 2, 2, 2, 2, 3, 3, 3, 4, 4]
  | .greyDeep => [1, 1, 1, 0, 2, 2, 2, 2, 2, 2, 3, 3, 3, 4, 4]
  | .cmyk => [2, 1, 3, 2, 0, 2, 2, 2, 2, 2, 3, 3, 3, 4, 4]
  | .hsi => [2, 1, 3, 2, 2, 0, 2, 2, 2, 2, 3, 3, 3, 4, 4]
  | .hsv => [2, 1, 3, 2, 2, 2, 0, 1, 2, 2, 3, 3, 3, 4, 4]
  | .hsl => [2, 1, 3, 2, 2, 2, 1, 0, 2, 2, 3, 3, 3, 4, 4]
  | .hcy => [2, 1, 3, 2, 2, 2, 2, 2, 0, 2, 3, 3, 3, 4, 4]
  | .xyz => [2, 1, 3, 2, 2, 2, 2, 2, 2, 0, 1, 1, 1, 2, 2]
  | .xyy => [3, 2, 4, 3, 3, 3, 3, 3, 3, 1, 0, 2, 2, 3, 3]
  | .cieluv => [3, 2, 4, 3, 3, 3, 3, 3, 3, 1, 2, 0, 2, 3, 1]
  | .lab => [3, 2, 4, 3, 3, 3, 3, 3, 3, 1, 2, 2, 0, 1, 3]
  | .lchAb => [4, 3, 5, 4, 4, 4, 4, 4, 4, 2, 3, 3, 1, 0, 4]
  | .lchUv => [4, 3, 5, 4, 4, 4, 4, 4, 4, 2, 3, 1, 3, 4, 0]
  | .undefined => []

/-- The column of a type in `stops`. -/
def column : ColorType → Nat
  | .rgbTrue => 0
  | .rgbDeep => 1
  | .greyTrue => 2
  | .greyDeep => 3
  | .cmyk => 4
  | .hsi => 5
  | .hsv => 6
  | .hsl => 7
  | .hcy => 8
  | .xyz => 9
  | .xyy => 10
  | .cieluv => 11
  | .lab => 12
  | .lchAb => 13
  | .lchUv => 14
  | .undefined => 15

/-- Number of objects made by a conversion from `s` to `t`. -/
def hops (s t : ColorType) : Nat := (stops s).getD (column t) 0

section
variable [FloatModel]

/-- The calls of the library with the number of colours they are asked for; a call that returns a number counts as one. -/
inductive Asks : (α : Type) → Prog α → Nat → Prop
  | small {args : List Ptr} {α : Type} {p : Prog α} {res : α → List Ptr} {pr : Promise} : Call True args α p res pr → (∀ a, (res a).length ≤ 1) → Asks α p 1
  | combination (p : Ptr) (n : Int) : Asks (List Ptr) (Combine.create_combination p n) (max 1 n.toNat)
  | triplet (p : Ptr) : Asks (List Ptr) (Combine.create_triplet p) 3
  | quartet (p : Ptr) : Asks (List Ptr) (Combine.create_quartet p) 4
  | quintet (p : Ptr) : Asks (List Ptr) (Combine.create_quintet p) 5
  | analogous (p : Ptr) (x : Fl) : Asks (List Ptr) (Combine.create_analogous p x) 3
  | monochromatic (p : Ptr) (mode : Int) (x : Fl) (n : Int) : Asks (List Ptr) (Combine.create_monochromatic p mode x n) (max 1 n.toNat)
  | complimentarySplit (p : Ptr) (x : Fl) : Asks (List Ptr) (Combine.create_complimentary_split p x) 3

/-- The memories that programs can reach, with the number of colours asked for on the way; `n` counts writes, too. -/
inductive Run : Nat → Heap → Prop
  | start (w : World) : Run 0 ⟨w, []⟩
  | call (n k : Nat) (h : Heap) (α : Type) (p : Prog α) : Run n h → Asks α p k → (p h).1 ≠ .ub → Run (n + k) (p h).2
  | write (n : Nat) (h : Heap) (i : Nat) (p : Prog Unit) : Run n h → Write True i p → (p h).1 ≠ .ub → Run (n + 1) (p h).2
  | adapt (n : Nat) (h : Heap) (f : Adapt.Core) (a : Nat) (p : Ptr) (target : Option Nat) : Run n h → (Adapt.adapt f a p target h).1 ≠ .ub → Run (n + 1) (Adapt.adapt f a p target h).2
  | world (n : Nat) (h : Heap) (w : World) : Run n h → Run n ⟨w, h.colors⟩

end

end MemorySpec

import Verif.Converter

/-!
# Colour arithmetic

Model of `ColorMagic/manipulation/color_calculation.cpp`.

C++ leaves the order open in which two arguments `to_x(color1)`, `to_x(color2)` are evaluated; the model converts the first colour first.  The two calls
do not interfere: at most the second one changes its argument (C34), and only if that is not of the type of the first colour.
`new float[3]` arrays are values.
-/

open Outcome Prog Fl

namespace Calc

section
variable [FloatModel]

/-- `if (w < 0.f || w > 1.f) throw new std::invalid_argument(..)`, as at color_calculation.cpp:6-7. -/
noncomputable def checked {α : Type} (w : Fl) (p : Prog α) : Prog α := if w < 0 ∨ w > 1 then throwNewInvalid else p

/-- `if (w <= 0.f || w > 1.f) throw ..`: color_calculation.cpp:210 and 346. -/
noncomputable def checkedPositive {α : Type} (w : Fl) (p : Prog α) : Prog α := if w ≤ 0 ∨ w > 1 then throwNewInvalid else p

/-- Read `n` components of two colours with their getters, beginning with number `i`, and combine them. -/
def zip (f : Fl → Fl → Fl) (a b : Color) : Nat → Nat → Outcome (List Fl)
  | 0, _ => ok []
  | n + 1, i => do
    let x ← a.getComponent i
    let y ← b.getComponent i
    let r ← zip f a b n (i + 1)
    ok (f x y :: r)

/-- `weight1 * x + weight2 * y`, as at color_calculation.cpp:73. -/
noncomputable def linear (w1 w2 x y : Fl) : Fl := w1 * x + w2 * y

/-- `std::sqrtf(weight1 * std::powf(x, 2.f) + weight2 * std::powf(y, 2.f))`, as at color_calculation.cpp:47. -/
noncomputable def quadratic (w1 w2 x y : Fl) : Fl := sqrt (w1 * powf x 2 + w2 * powf y 2)

/-- `fminf(fmaxf(v, 0), 255)`, as at color_calculation.cpp:52. -/
noncomputable def byteLimit (v : Fl) : Fl := fmin (fmax v 0) 255

/-- color_calculation.cpp:744-751 `convert_to_vector` -/
noncomputable def toVector (hue saturation third : Fl) : Fl × Fl × Fl :=
  (cosf (hue / 180 * lit Real.pi) * saturation, sinf (hue / 180 * lit Real.pi) * saturation, third)

/-- color_calculation.cpp:753-759 `convert_from_vector` -/
noncomputable def fromVector (v : Fl × Fl × Fl) : List Fl :=
  [atan2f v.2.1 v.1 * 180 / lit Real.pi, sqrt (powf v.1 2 + powf v.2.1 2), v.2.2]

/-- Alpha of a sum: `include_alpha ? f(color1->alpha(), color2->alpha()) : color1->alpha()`, as at color_calculation.cpp:50. -/
noncomputable def alphaOf (f : Fl → Fl → Fl) (ia : Bool) (a b : Color) : Fl := if ia then f a.alpha b.alpha else a.alpha

/-- The sums of two objects of one class that are computed componentwise and the one of hsv; by class. -/
noncomputable def addVal (t : ColorType) (w1 w2 : Fl) (ia : Bool) (a b : Color) : Outcome Color :=
  match t with
  /- color_calculation.cpp:42-53 -/
  | .rgbTrue => do Color.construct .rgbTrue ((← zip (quadratic w1 w2) a b 3 0).map byteLimit) (byteLimit (alphaOf (quadratic w1 w2) ia a b)) a.space
  /- color_calculation.cpp:55-66 -/
  | .rgbDeep => do Color.construct .rgbDeep (← zip (quadratic w1 w2) a b 3 0) (alphaOf (quadratic w1 w2) ia a b) a.space
  /- color_calculation.cpp:68-77 -/
  | .greyTrue => do Color.construct .greyTrue ((← zip (linear w1 w2) a b 1 0).map byteLimit) (byteLimit (alphaOf (linear w1 w2) ia a b)) a.space
  /- color_calculation.cpp:79-88 -/
  | .greyDeep => do Color.construct .greyDeep (← zip (linear w1 w2) a b 1 0) (alphaOf (linear w1 w2) ia a b) a.space
  /- color_calculation.cpp:90-102 -/
  | .cmyk => do Color.construct .cmyk (← zip (linear w1 w2) a b 4 0) (alphaOf (linear w1 w2) ia a b) a.space
  /- color_calculation.cpp:112-127 -/
  | .hsv => do
    let v1 := toVector (← a.getComponent 0) (← a.getComponent 1) (← a.getComponent 2)
    let v2 := toVector (← b.getComponent 0) (← b.getComponent 1) (← b.getComponent 2)
    Color.construct .hsv (fromVector (linear w1 w2 v1.1 v2.1, linear w1 w2 v1.2.1 v2.2.1, linear w1 w2 v1.2.2 v2.2.2)) (alphaOf (linear w1 w2) ia a b) a.space
  /- color_calculation.cpp:145-156 -/
  | .xyz => do Color.construct .xyz (← zip (linear w1 w2) a b 3 0) (alphaOf (linear w1 w2) ia a b) a.space
  /- color_calculation.cpp:158-169 -/
  | .xyy => do Color.construct .xyy (← zip (linear w1 w2) a b 3 0) (alphaOf (linear w1 w2) ia a b) a.space
  /- color_calculation.cpp:171-182 -/
  | .cieluv => do Color.construct .cieluv (← zip (linear w1 w2) a b 3 0) (alphaOf (linear w1 w2) ia a b) a.space
  /- the other classes have no sum of their own -/
  | _ => .ub

/-- `x - weight * y`, as at color_calculation.cpp:381. -/
noncomputable def minus (w x y : Fl) : Fl := x - w * y

/-- The differences of two objects of one class that are computed componentwise and the one of hsv; by class. -/
noncomputable def subVal (t : ColorType) (w : Fl) (ia : Bool) (a b : Color) : Outcome Color :=
  match t with
  /- color_calculation.cpp:377-387 -/
  | .rgbTrue => do Color.construct .rgbTrue (← zip (minus w) a b 3 0) (alphaOf (minus w) ia a b) a.space
  /- color_calculation.cpp:389-399 -/
  | .rgbDeep => do Color.construct .rgbDeep (← zip (minus w) a b 3 0) (alphaOf (minus w) ia a b) a.space
  /- color_calculation.cpp:401-406 -/
  | .greyTrue => do Color.construct .greyTrue (← zip (minus w) a b 1 0) (alphaOf (minus w) ia a b) a.space
  /- color_calculation.cpp:408-413 -/
  | .greyDeep => do Color.construct .greyDeep (← zip (minus w) a b 1 0) (alphaOf (minus w) ia a b) a.space
  /- color_calculation.cpp:415-426 -/
  | .cmyk => do Color.construct .cmyk (← zip (minus w) a b 4 0) (alphaOf (minus w) ia a b) a.space
  /- color_calculation.cpp:435-449 -/
  | .hsv => do
    let v1 := toVector (← a.getComponent 0) (← a.getComponent 1) (← a.getComponent 2)
    let v2 := toVector (← b.getComponent 0) (← b.getComponent 1) (← b.getComponent 2)
    Color.construct .hsv (fromVector (minus w v1.1 v2.1, minus w v1.2.1 v2.2.1, minus w v1.2.2 v2.2.2)) (alphaOf (minus w) ia a b) a.space
  /- color_calculation.cpp:465-475 -/
  | .xyz => do Color.construct .xyz (← zip (minus w) a b 3 0) (alphaOf (minus w) ia a b) a.space
  /- color_calculation.cpp:477-487 -/
  | .xyy => do Color.construct .xyy (← zip (minus w) a b 3 0) (alphaOf (minus w) ia a b) a.space
  /- color_calculation.cpp:489-499 -/
  | .cieluv => do Color.construct .cieluv (← zip (minus w) a b 3 0) (alphaOf (minus w) ia a b) a.space
  /- the other classes have no difference of their own -/
  | _ => .ub

/-- Read two objects and create a third. -/
def binary (f : Color → Color → Outcome Color) (p1 p2 : Ptr) : Prog Ptr := do
  let a ← load p1
  let b ← load p2
  let r ← lift (f a b)
  alloc r

/-- Convert two objects, combine them and convert the result. -/
def via (conv back : Ptr → Prog Ptr) (f : Ptr → Ptr → Prog Ptr) (p1 p2 : Ptr) : Prog Ptr := do
  let a ← conv p1
  let b ← conv p2
  let r ← f a b
  back r

/-- The overloads of `add` for one class that combine components. -/
noncomputable def addOwn (t : ColorType) (w1 w2 : Fl) (ia : Bool) (p1 p2 : Ptr) : Prog Ptr :=
  checked w1 (checked w2 (binary (addVal t w1 w2 ia) p1 p2))

/-- The overloads of `add` for one class. -/
noncomputable def addOf (t : ColorType) (w1 w2 : Fl) (ia : Bool) (p1 p2 : Ptr) : Prog Ptr :=
  match t with
  /- color_calculation.cpp:104-110 -/
  | .hsi => checked w1 (checked w2 (via Converter.to_hsv Converter.to_hsi (addOwn .hsv w1 w2 ia) p1 p2))
  /- color_calculation.cpp:129-135 -/
  | .hsl => checked w1 (checked w2 (via Converter.to_hsv Converter.to_hsl (addOwn .hsv w1 w2 ia) p1 p2))
  /- color_calculation.cpp:137-143 -/
  | .hcy => checked w1 (checked w2 (via Converter.to_hsv Converter.to_hcy (addOwn .hsv w1 w2 ia) p1 p2))
  /- color_calculation.cpp:184-190 -/
  | .lab => checked w1 (checked w2 (via Converter.to_xyz Converter.to_lab (addOwn .xyz w1 w2 ia) p1 p2))
  /- color_calculation.cpp:192-198 -/
  | .lchAb => checked w1 (checked w2 (via Converter.to_xyz Converter.to_lch_ab (addOwn .xyz w1 w2 ia) p1 p2))
  /- color_calculation.cpp:200-206 -/
  | .lchUv => checked w1 (checked w2 (via Converter.to_xyz Converter.to_lch_uv (addOwn .xyz w1 w2 ia) p1 p2))
  | t => addOwn t w1 w2 ia p1 p2

/-- color_calculation.cpp:4-40 `add(color_base*, ..)`; the result of an hsi or hcy colour is null. -/
noncomputable def add (w1 w2 : Fl) (ia : Bool) (p1 p2 : Ptr) : Prog Ptr :=
  checked w1 (checked w2 (do
    let c ← load p1
    match c.ctype with
    | .rgbTrue => via Converter.to_rgb_true pure (addOf .rgbTrue w1 w2 ia) p1 p2
    | .rgbDeep => via Converter.to_rgb_deep pure (addOf .rgbDeep w1 w2 ia) p1 p2
    | .greyTrue => via Converter.to_grey_true pure (addOf .greyTrue w1 w2 ia) p1 p2
    | .greyDeep => via Converter.to_grey_deep pure (addOf .greyDeep w1 w2 ia) p1 p2
    | .cmyk => via Converter.to_cmyk pure (addOf .cmyk w1 w2 ia) p1 p2
    | .hsv => via Converter.to_hsv pure (addOf .hsv w1 w2 ia) p1 p2
    | .hsl => via Converter.to_hsl pure (addOf .hsl w1 w2 ia) p1 p2
    | .xyz => via Converter.to_xyz pure (addOf .xyz w1 w2 ia) p1 p2
    | .xyy => via Converter.to_xyy pure (addOf .xyy w1 w2 ia) p1 p2
    | .cieluv => via Converter.to_cieluv pure (addOf .cieluv w1 w2 ia) p1 p2
    | .lab => via Converter.to_lab pure (addOf .lab w1 w2 ia) p1 p2
    | .lchAb => via Converter.to_lch_ab pure (addOf .lchAb w1 w2 ia) p1 p2
    | .lchUv => via Converter.to_lch_uv pure (addOf .lchUv w1 w2 ia) p1 p2
    | _ => pure none))

/-- The overloads of `mix` for one class, color_calculation.cpp:241-342; the one for rgb_truecolor (241-244) leaves the check of the weight to `add`. -/
noncomputable def mixOf (t : ColorType) (w : Fl) (ia : Bool) (p1 p2 : Ptr) : Prog Ptr :=
  match t with
  | .rgbTrue => addOf .rgbTrue w (1 - w) ia p1 p2
  | t => checked w (addOf t w (1 - w) ia p1 p2)

/-- color_calculation.cpp:208-239 `mix(color_base*, ..)`; the result of an hsi, hcy, xyy or cieluv colour is null. -/
noncomputable def mix (w : Fl) (ia : Bool) (p1 p2 : Ptr) : Prog Ptr :=
  checkedPositive w (do
    let c ← load p1
    match c.ctype with
    | .rgbTrue => via Converter.to_rgb_true pure (mixOf .rgbTrue w ia) p1 p2
    | .rgbDeep => via Converter.to_rgb_deep pure (mixOf .rgbDeep w ia) p1 p2
    | .greyTrue => via Converter.to_grey_true pure (mixOf .greyTrue w ia) p1 p2
    | .greyDeep => via Converter.to_grey_deep pure (mixOf .greyDeep w ia) p1 p2
    | .cmyk => via Converter.to_cmyk pure (mixOf .cmyk w ia) p1 p2
    | .hsv => via Converter.to_hsv pure (mixOf .hsv w ia) p1 p2
    | .hsl => via Converter.to_hsl pure (mixOf .hsl w ia) p1 p2
    | .xyz => via Converter.to_xyz pure (mixOf .xyz w ia) p1 p2
    | .lab => via Converter.to_lab pure (mixOf .lab w ia) p1 p2
    | .lchAb => via Converter.to_lch_ab pure (mixOf .lchAb w ia) p1 p2
    | .lchUv => via Converter.to_lch_uv pure (mixOf .lchUv w ia) p1 p2
    | _ => pure none)

/-- The overloads of `subtract` for one class that combine components. -/
noncomputable def subOwn (t : ColorType) (w : Fl) (ia : Bool) (p1 p2 : Ptr) : Prog Ptr := checked w (binary (subVal t w ia) p1 p2)

/-- The overloads of `subtract` for one class; those that go through another class call it without `include_alpha`, whose default is false. -/
noncomputable def subOf (t : ColorType) (w : Fl) (ia : Bool) (p1 p2 : Ptr) : Prog Ptr :=
  match t with
  /- color_calculation.cpp:428-433 -/
  | .hsi => checked w (via Converter.to_hsv Converter.to_hsi (subOwn .hsv w false) p1 p2)
  /- color_calculation.cpp:451-456 -/
  | .hsl => checked w (via Converter.to_hsv Converter.to_hsl (subOwn .hsv w false) p1 p2)
  /- color_calculation.cpp:458-463 -/
  | .hcy => checked w (via Converter.to_hsv Converter.to_hcy (subOwn .hsv w false) p1 p2)
  /- color_calculation.cpp:501-506 -/
  | .lab => checked w (via Converter.to_xyz Converter.to_lab (subOwn .xyz w false) p1 p2)
  /- color_calculation.cpp:508-513 -/
  | .lchAb => checked w (via Converter.to_xyz Converter.to_lch_ab (subOwn .xyz w false) p1 p2)
  /- color_calculation.cpp:515-520 -/
  | .lchUv => checked w (via Converter.to_xyz Converter.to_lch_uv (subOwn .xyz w false) p1 p2)
  | t => subOwn t w ia p1 p2

/-- color_calculation.cpp:344-375 `subtract(color_base*, ..)`; the result of an hsi, hcy, xyy or cieluv colour is null. -/
noncomputable def subtract (w : Fl) (ia : Bool) (p1 p2 : Ptr) : Prog Ptr :=
  checkedPositive w (do
    let c ← load p1
    match c.ctype with
    | .rgbTrue => via Converter.to_rgb_true pure (subOf .rgbTrue w ia) p1 p2
    | .rgbDeep => via Converter.to_rgb_deep pure (subOf .rgbDeep w ia) p1 p2
    | .greyTrue => via Converter.to_grey_true pure (subOf .greyTrue w ia) p1 p2
    | .greyDeep => via Converter.to_grey_deep pure (subOf .greyDeep w ia) p1 p2
    | .cmyk => via Converter.to_cmyk pure (subOf .cmyk w ia) p1 p2
    | .hsv => via Converter.to_hsv pure (subOf .hsv w ia) p1 p2
    | .hsl => via Converter.to_hsl pure (subOf .hsl w ia) p1 p2
    | .xyz => via Converter.to_xyz pure (subOf .xyz w ia) p1 p2
    | .lab => via Converter.to_lab pure (subOf .lab w ia) p1 p2
    | .lchAb => via Converter.to_lch_ab pure (subOf .lchAb w ia) p1 p2
    | .lchUv => via Converter.to_lch_uv pure (subOf .lchUv w ia) p1 p2
    | _ => pure none)

/-- Read all the objects of a vector. -/
def loadAll : List Ptr → Prog (List Color)
  | [] => pure []
  | p :: ps => do
    let c ← load p
    let cs ← loadAll ps
    pure (c :: cs)

/-- `sum[k] += colors[i]->component_k()` for all `k`, as at color_calculation.cpp:529-531. -/
noncomputable def accumulate (sums : List Fl) (c : Color) : Nat → Outcome (List Fl)
  | i => match sums with
    | [] => ok []
    | s :: ss => do
      let x ← c.getComponent i
      let r ← accumulate ss c (i + 1)
      ok ((s + x) :: r)

/-- The loop of the averages, as at color_calculation.cpp:527-533: the sums of the components and the slot for alpha.  In `average_cmyk` the alpha of the
colour is added to the slot of the fourth component (color_calculation.cpp:589). -/
noncomputable def averageLoop (t : ColorType) (ia : Bool) (first : Color) : List Color → List Fl → Fl → Outcome (List Fl × Fl)
  | [], sums, al => ok (sums, al)
  | c :: cs, sums, al => do
    let sums ← accumulate sums c 0
    let al := if ia then (if t = .cmyk then (sums[3]?).getD 0 + c.alpha else al + c.alpha) else first.alpha
    averageLoop t ia first cs sums al

/-- The fifteen functions `average_*` after the check for an empty vector, color_calculation.cpp:522-742, by class. -/
noncomputable def averageVal (t : ColorType) (ia : Bool) (cs : List Color) : Outcome Color :=
  match cs with
  | [] => .ub
  | first :: _ => do
    let (sums, al) ← averageLoop t ia first cs (List.replicate (Color.count t) 0) 0
    let n := lit (cs.length : ℝ)
    Color.construct t (sums.map (· / n)) (if ia then al / n else al) first.space

/-- The fifteen functions `average_*`, color_calculation.cpp:522-742, by class. -/
noncomputable def average (t : ColorType) (ia : Bool) (ps : List Ptr) : Prog Ptr :=
  if ps = [] then throwNewInvalid
  else do
    let cs ← loadAll ps
    let r ← lift (averageVal t ia cs)
    alloc r

end

end Calc

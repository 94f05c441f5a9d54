import Verif.Float
import Verif.Outcome

/-!
# Colour objects

Model of `ColorMagic/spaces/color_base.h`, the fifteen derived classes in `ColorMagic/spaces/*.cpp` and
`ColorMagic/utils/color_type.h`.
-/

/-- utils/color_type.h:8-27.  The fifteen colour spaces and `UNDEFINED`. -/
inductive ColorType where
  | rgbTrue | rgbDeep | greyTrue | greyDeep | cmyk | hsi | hsv | hsl | hcy
  | xyz | xyy | cieluv | lab | lchAb | lchUv
  | undefined
  deriving DecidableEq, Repr

/-- A colour object (spaces/color_base.h:253-299, the data members).
`cls` is the dynamic class of the object (`undefined` = plain `color_base`), which decides which virtual `alpha()` runs;
`ctype` is `m_type`.  `m_a_max`/`m_a_min` are never changed and are the constants 1 and 0.
`space` is the pointer to the RGB colour space definition (`none` = null). -/
structure Color where
  cls : ColorType
  ctype : ColorType
  comps : List Fl
  malpha : Fl
  maxv : Fl
  minv : Fl
  space : Option Nat

namespace Color

open Fl Outcome

/-- color_base.h:250 `clamp(in_value, max, min)`. -/
noncomputable def clamp (v mx mn : Fl) : Fl := fmax (fmin v mx) mn

/-- color_base.h:33-44, the base constructor: alpha is stored as given, all components are -1. -/
def base (alpha : Fl) (space : Option Nat) (count : Nat) (mx mn : Fl) : Color :=
  { cls := .undefined, ctype := .undefined, comps := List.replicate count (.fin (-1)),
    malpha := alpha, maxv := mx, minv := mn, space := space }

/-- color_base.h:72-76 `get_component`. -/
def getComponent (c : Color) (i : Int) : Outcome Fl :=
  if i < 0 ∨ (c.comps.length : Int) ≤ i then throwNewRange
  else match c.comps[i.toNat]? with
    | some v => ok v
    | none => ub

/-- color_base.h:98-102 `set_component` with explicit limits. -/
noncomputable def setComponentLim (c : Color) (v : Fl) (i : Int) (mx mn : Fl) : Outcome Color :=
  if i < 0 ∨ (c.comps.length : Int) ≤ i then throwNewRange
  else ok { c with comps := c.comps.set i.toNat (clamp v mx mn) }

/-- color_base.h:84-88 `set_component` with the limits of the object. -/
noncomputable def setComponent (c : Color) (v : Fl) (i : Int) : Outcome Color :=
  setComponentLim c v i c.maxv c.minv

/-- color_base.h:119 `set_rgb_color_space`. -/
def setSpace (c : Color) (s : Option Nat) : Color := { c with space := s }

/-- Classes that override `alpha()`: rgb_truecolor.cpp:139-147, grey_truecolor.cpp:53-61. -/
def scalesAlpha : ColorType → Bool
  | .rgbTrue => true
  | .greyTrue => true
  | _ => false

section arith
variable [FloatModel]

/-- color_base.h:129 `alpha()`, overridden at rgb_truecolor.cpp:139-142 and grey_truecolor.cpp:53-56. -/
noncomputable def alpha (c : Color) : Fl := if scalesAlpha c.cls then c.malpha * 255 else c.malpha

/-- color_base.h:134 `alpha(float)`, overridden at rgb_truecolor.cpp:144-147 and grey_truecolor.cpp:58-61. -/
noncomputable def setAlpha (c : Color) (a : Fl) : Color :=
  { c with malpha := clamp (if scalesAlpha c.cls then a / 255 else a) 1 0 }

/-- color_base.h:140-158 `operator==`. -/
def eq (a b : Color) : Prop :=
  a.ctype = b.ctype ∧ a.comps.length = b.comps.length ∧
    ∀ i (h : i < a.comps.length) (h' : i < b.comps.length), feq a.comps[i] b.comps[i]

/-- color_base.h:173-189 `operator+`.  The result is a plain `color_base`: its `m_alpha` is what the virtual
`alpha()` of the left operand returned. -/
noncomputable def plus (a b : Color) : Outcome Color :=
  if a.ctype = b.ctype ∧ a.comps.length = b.comps.length then
    ok { cls := .undefined, ctype := a.ctype,
         comps := List.zipWith (fun x y => clamp (x + y) a.maxv a.minv) a.comps b.comps,
         malpha := a.alpha, maxv := a.maxv, minv := a.minv, space := a.space }
  else throwNewInvalid

/-- color_base.h:195-201 `alpha_multiply`. -/
noncomputable def alphaMultiply (c : Color) : Color := { c with comps := c.comps.map (· * c.malpha) }

/-- color_base.h:207-215 `alpha_divide`. -/
noncomputable def alphaDivide (c : Color) : Color :=
  if feq c.malpha 0 then c else { c with comps := c.comps.map (· / c.malpha) }

/-- color_base.h:221-227 / 233-239 `do_gamma_correction`, `do_inverse_gamma_correction`; `g` is the
(inverse) gamma function of the colour space. -/
noncomputable def applyGamma (g : Fl → Fl) (c : Color) : Color :=
  { c with comps := c.comps.map fun v => clamp (g v) c.maxv c.minv }

/-- One pass over the loop of the hue setters (hsv.cpp:52-55, hsl.cpp, hsi.cpp, hcy.cpp):
`while (h < 0) h += 360`, with at most `n` evaluations of the condition; `none` when that is not enough. -/
noncomputable def hueLoop : Nat → Fl → Option Fl
  | 0, _ => none
  | n + 1, h => if h < 0 then hueLoop n (h + 360) else some h

/-- The value the loop leaves: one iteration always suffices (theorem `hueLoop_terminates`). -/
noncomputable def hueReduce (h : Fl) : Fl :=
  let m := fmod h 360
  if m < 0 then m + 360 else m

/-- hsv.cpp:49-58, hsl.cpp:49-58, hsi.cpp:49-58, hcy.cpp:49-58 `hue(float)`. -/
noncomputable def setHue (c : Color) (h : Fl) : Outcome Color := setComponentLim c (hueReduce h) 0 359 0

/-- The named channel setters of all fifteen classes, by class and channel number:
hue of hsi/hsv/hsl/hcy (wrapping), luminance/L of lab (lab.cpp:49-52) and cieluv (cieluv.cpp:49-52) limited to 0..100, hue of
lch_ab/lch_uv (lch_ab.cpp:69-72, lch_uv.cpp:69-72) limited to 0..359, and everything else `set_component(v, i)`. -/
noncomputable def setChannel (c : Color) (i : Nat) (v : Fl) : Outcome Color :=
  match c.cls, i with
  | .hsi, 0 => setHue c v
  | .hsv, 0 => setHue c v
  | .hsl, 0 => setHue c v
  | .hcy, 0 => setHue c v
  | .lab, 0 => setComponentLim c v 0 100 0
  | .cieluv, 0 => setComponentLim c v 0 100 0
  | .lchAb, 2 => setComponentLim c v 2 359 0
  | .lchUv, 2 => setComponentLim c v 2 359 0
  | _, i => setComponent c v i

/-! ### Constructors -/

/-- Number of components each class passes to the base constructor (spaces/*.cpp, line 4). -/
def count : ColorType → Nat
  | .greyTrue => 1
  | .greyDeep => 1
  | .cmyk => 4
  | .undefined => 0
  | _ => 3

/-- Upper limit each class passes to the base constructor (spaces/*.cpp, line 4; default 1). -/
def maxOf : ColorType → Fl
  | .rgbTrue => 255
  | .greyTrue => 255
  | .xyz => 100
  | .xyy => 100
  | .cieluv => 100
  | .lab => 128
  | .lchAb => 100
  | .lchUv => 100
  | _ => 1

/-- Lower limit each class passes to the base constructor (spaces/*.cpp, line 4; default 0). -/
def minOf : ColorType → Fl
  | .cieluv => -100
  | .lab => -128
  | _ => 0

/-- Write the channels one after the other with the named setters, as every constructor body does. -/
noncomputable def setChannels : Nat → List Fl → Color → Outcome Color
  | _, [], c => ok c
  | i, v :: vs, c => do setChannels (i + 1) vs (← setChannel c i v)

/-- The component constructors of all classes (spaces/*.cpp, first constructor; rgb_truecolor.cpp:13-20,
rgb_deepcolor.cpp:12-18): base constructor, type tag, channel setters in order and, for the two
true-colour classes, the alpha setter. -/
noncomputable def construct (t : ColorType) (vs : List Fl) (alpha : Fl) (space : Option Nat) : Outcome Color := do
  let c ← setChannels 0 vs { base alpha space (count t) (maxOf t) (minOf t) with cls := t, ctype := t }
  pure (if scalesAlpha t then c.setAlpha alpha else c)

/-- The single-value constructors of rgb_truecolor (rgb_truecolor.cpp:4-11) and rgb_deepcolor (rgb_deepcolor.cpp:4-10). -/
noncomputable def constructGrey (t : ColorType) (v : Fl) (alpha : Fl) (space : Option Nat) : Outcome Color :=
  construct t [v, v, v] alpha space

/-- Copy constructors (spaces/*.cpp, e.g. hsv.cpp:12-17): limits, type, components and space are copied, alpha goes through
the getter and the limiting setter.  The component count passed to the base constructor is overwritten. -/
noncomputable def copy (o : Color) : Color :=
  setAlpha { cls := o.cls, ctype := o.ctype, comps := o.comps, malpha := o.alpha,
             maxv := o.maxv, minv := o.minv, space := o.space } o.alpha

/-- Number of components the constructor from a `color_base` reference of each class demands: rgb_truecolor.cpp:80,
rgb_deepcolor.cpp:29, cmyk.cpp:22 and cieluv.cpp:21 say 4, grey_truecolor.cpp:20 says 2, grey_deepcolor.cpp:19 says 1, the others 3. -/
def fromBaseSize : ColorType → Nat
  | .rgbTrue => 4
  | .rgbDeep => 4
  | .cmyk => 4
  | .cieluv => 4
  | .greyTrue => 2
  | .greyDeep => 1
  | _ => 3

/-- Constructors from a `color_base` reference (spaces/*.cpp, e.g. hsv.cpp:19-30).  The raw alpha is what the virtual getter of the
argument returned; the alpha setter is not called. -/
noncomputable def fromBase (t : ColorType) (o : Color) : Outcome Color :=
  if o.ctype = t ∧ o.comps.length = fromBaseSize t then
    ok { cls := t, ctype := t, comps := o.comps, malpha := o.alpha,
         maxv := o.maxv, minv := o.minv, space := o.space }
  else throwNewInvalid

/-- Assignment operators (spaces/*.cpp, e.g. hsv.cpp:32-42): type, components and limits are copied, alpha and colour space
are not.  Self-assignment changes nothing, which this function also says. -/
def assign (c o : Color) : Color :=
  { c with ctype := o.ctype, comps := o.comps, maxv := o.maxv, minv := o.minv }

/-! ### Explicit results of the constructors -/

/-- rgb_truecolor.cpp:13-20. -/
noncomputable def mkRgbTrue (r g b a : Fl) (sp : Option Nat) : Color :=
  ⟨.rgbTrue, .rgbTrue, [clamp r 255 0, clamp g 255 0, clamp b 255 0], clamp (a / 255) 1 0, 255, 0, sp⟩
/-- rgb_deepcolor.cpp:12-18. -/
noncomputable def mkRgbDeep (r g b a : Fl) (sp : Option Nat) : Color :=
  ⟨.rgbDeep, .rgbDeep, [clamp r 1 0, clamp g 1 0, clamp b 1 0], a, 1, 0, sp⟩
/-- grey_truecolor.cpp:4-9. -/
noncomputable def mkGreyTrue (v a : Fl) (sp : Option Nat) : Color :=
  ⟨.greyTrue, .greyTrue, [clamp v 255 0], clamp (a / 255) 1 0, 255, 0, sp⟩
/-- grey_deepcolor.cpp:4-8. -/
noncomputable def mkGreyDeep (v a : Fl) (sp : Option Nat) : Color :=
  ⟨.greyDeep, .greyDeep, [clamp v 1 0], a, 1, 0, sp⟩
/-- cmyk.cpp:4-11. -/
noncomputable def mkCmyk (x m y k a : Fl) (sp : Option Nat) : Color :=
  ⟨.cmyk, .cmyk, [clamp x 1 0, clamp m 1 0, clamp y 1 0, clamp k 1 0], a, 1, 0, sp⟩
/-- hsi.cpp:4-10, hsv.cpp:4-10, hsl.cpp:4-10, hcy.cpp:4-10. -/
noncomputable def mkHue (t : ColorType) (h s v a : Fl) (sp : Option Nat) : Color :=
  ⟨t, t, [clamp (hueReduce h) 359 0, clamp s 1 0, clamp v 1 0], a, 1, 0, sp⟩
/-- xyz.cpp:4-10, xyy.cpp:4-10. -/
noncomputable def mkXyz (t : ColorType) (x y z a : Fl) (sp : Option Nat) : Color :=
  ⟨t, t, [clamp x 100 0, clamp y 100 0, clamp z 100 0], a, 100, 0, sp⟩
/-- cieluv.cpp:4-10. -/
noncomputable def mkCieluv (l u v a : Fl) (sp : Option Nat) : Color :=
  ⟨.cieluv, .cieluv, [clamp l 100 0, clamp u 100 (-100), clamp v 100 (-100)], a, 100, -100, sp⟩
/-- lab.cpp:4-10. -/
noncomputable def mkLab (l x y a : Fl) (sp : Option Nat) : Color :=
  ⟨.lab, .lab, [clamp l 100 0, clamp x 128 (-128), clamp y 128 (-128)], a, 128, -128, sp⟩
/-- lch_ab.cpp:4-10, lch_uv.cpp:4-10. -/
noncomputable def mkLch (t : ColorType) (l x h a : Fl) (sp : Option Nat) : Color :=
  ⟨t, t, [clamp l 100 0, clamp x 100 0, clamp h 359 0], a, 100, 0, sp⟩

section ctors
variable (a : Fl) (sp : Option Nat)

attribute [local simp] construct setChannels setChannel setComponent setComponentLim setHue base count maxOf minOf
  scalesAlpha setAlpha Outcome.bind

theorem construct_rgbTrue (r g b : Fl) : construct .rgbTrue [r, g, b] a sp = ok (mkRgbTrue r g b a sp) := by
  simp [mkRgbTrue]
theorem construct_rgbDeep (r g b : Fl) : construct .rgbDeep [r, g, b] a sp = ok (mkRgbDeep r g b a sp) := by
  simp [mkRgbDeep]
theorem construct_greyTrue (v : Fl) : construct .greyTrue [v] a sp = ok (mkGreyTrue v a sp) := by
  simp [mkGreyTrue]
theorem construct_greyDeep (v : Fl) : construct .greyDeep [v] a sp = ok (mkGreyDeep v a sp) := by
  simp [mkGreyDeep]
theorem construct_cmyk (x m y k : Fl) : construct .cmyk [x, m, y, k] a sp = ok (mkCmyk x m y k a sp) := by
  simp [mkCmyk]
theorem construct_hsi (h s v : Fl) : construct .hsi [h, s, v] a sp = ok (mkHue .hsi h s v a sp) := by
  simp [mkHue]
theorem construct_hsv (h s v : Fl) : construct .hsv [h, s, v] a sp = ok (mkHue .hsv h s v a sp) := by
  simp [mkHue]
theorem construct_hsl (h s v : Fl) : construct .hsl [h, s, v] a sp = ok (mkHue .hsl h s v a sp) := by
  simp [mkHue]
theorem construct_hcy (h s v : Fl) : construct .hcy [h, s, v] a sp = ok (mkHue .hcy h s v a sp) := by
  simp [mkHue]
theorem construct_xyz (x y z : Fl) : construct .xyz [x, y, z] a sp = ok (mkXyz .xyz x y z a sp) := by
  simp [mkXyz]
theorem construct_xyy (x y z : Fl) : construct .xyy [x, y, z] a sp = ok (mkXyz .xyy x y z a sp) := by
  simp [mkXyz]
theorem construct_cieluv (l u v : Fl) : construct .cieluv [l, u, v] a sp = ok (mkCieluv l u v a sp) := by
  simp [mkCieluv]
theorem construct_lab (l x y : Fl) : construct .lab [l, x, y] a sp = ok (mkLab l x y a sp) := by
  simp [mkLab]
theorem construct_lchAb (l x h : Fl) : construct .lchAb [l, x, h] a sp = ok (mkLch .lchAb l x h a sp) := by
  simp [mkLch]
theorem construct_lchUv (l x h : Fl) : construct .lchUv [l, x, h] a sp = ok (mkLch .lchUv l x h a sp) := by
  simp [mkLch]
end ctors

end arith
end Color

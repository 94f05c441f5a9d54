import Verif.TameLib
import Verif.Dispatch

/-!
# Whole programs that use the library

The specification for `Verif/Props/Sessions.lean`: which calls a program can make, which objects a call is given, what it promises to return, and which memories a program can reach.
-/

open Outcome Fl Prog ObjectSpec FrameSpec

namespace SessionSpec

/-- What a function promises about the pointers it returns: a fixed type, or the type of the object behind a pointer it was given. -/
inductive Promise where
  | typed (t : ColorType)
  | like (p : Ptr)

section
variable [FloatModel]

/-- The functions of the library that only create colours: the pointers they are given, the program, the pointers in the result and the promised type.
Compositing and blending are only there with `blends`. -/
inductive Call (blends : Prop) : List Ptr → (α : Type) → Prog α → (α → List Ptr) → Promise → Prop
  /-- Constructors of all classes. -/
  | create (t : ColorType) (vs : List Fl) (al : Fl) (sp : Option Nat) : t ≠ .undefined → vs.length = Color.count t →
      Call blends [] Ptr (do alloc (← lift (Color.construct t vs al sp))) (fun q => [q]) (.typed t)
  /-- `rgb_truecolor(int, ...)`, also used by `predefined_color`. -/
  | hexInt (code : BitVec 32) (sp : Option Nat) : Call blends [] Ptr (Predefined.make code sp) (fun q => [q]) (.typed .rgbTrue)
  /-- `rgb_truecolor(std::string, ...)` -/
  | hexString (s : List Char) (sp : Option Nat) : Call blends [] Ptr (do alloc (← lift (Color.fromHexString s sp))) (fun q => [q]) (.typed .rgbTrue)
  /-- Copy constructors. -/
  | copy (p : Ptr) : Call blends [p] Ptr (do alloc (← load p).copy) (fun q => [q]) (.like p)
  /-- Constructors from `color_base`. -/
  | fromBase (t : ColorType) (p : Ptr) : t ≠ .undefined → Call blends [p] Ptr (do alloc (← lift (Color.fromBase t (← load p)))) (fun q => [q]) (.typed t)
  /-- `convertTo(p, t)` -/
  | convertTo (p : Ptr) (t : ColorType) : Call blends [p] Ptr (Converter.convertTo p t) (fun q => [q]) (.typed t)
  /-- `to_<t>(p)` -/
  | dispatcher (p : Ptr) (t : ColorType) : Call blends [p] Ptr (Conv.dispatcher t p) (fun q => [q]) (.typed t)
  /-- `<s>_to_<t>(p)` -/
  | direct (p : Ptr) (s t : ColorType) : s ≠ t → Call blends [p] Ptr (Conv.direct s t p) (fun q => [q]) (.typed t)
  /-- The twelve Porter-Duff operators and all blend modes that work component by component, including `custom_componentwise_blend`. -/
  | blend (us ud ub : Bool) (f : Color → Color → Nat → Fl → Fl → Fl) (p q : Ptr) : blends → Call blends [p, q] Ptr (Blend.operator us ud ub f p q) (fun q => [q]) (.like p)
  | hue (us ud : Bool) (p q : Ptr) : Call blends [p, q] Ptr (ColorBlend.hue us ud p q) (fun q => [q]) (.like p)
  | saturation (us ud : Bool) (p q : Ptr) : Call blends [p, q] Ptr (ColorBlend.saturation us ud p q) (fun q => [q]) (.like p)
  | color (us ud : Bool) (p q : Ptr) : Call blends [p, q] Ptr (ColorBlend.color us ud p q) (fun q => [q]) (.like p)
  | luminosity (us ud : Bool) (p q : Ptr) : Call blends [p, q] Ptr (ColorBlend.luminosity us ud p q) (fun q => [q]) (.like p)
  | add (w1 w2 : Fl) (ia : Bool) (p q : Ptr) : Call blends [p, q] Ptr (Calc.add w1 w2 ia p q) (fun q => [q]) (.like p)
  | addOf (t : ColorType) (w1 w2 : Fl) (ia : Bool) (p q : Ptr) : t ≠ .undefined → Call blends [p, q] Ptr (Calc.addOf t w1 w2 ia p q) (fun q => [q]) (.typed t)
  | mix (w : Fl) (ia : Bool) (p q : Ptr) : Call blends [p, q] Ptr (Calc.mix w ia p q) (fun q => [q]) (.like p)
  | mixOf (t : ColorType) (w : Fl) (ia : Bool) (p q : Ptr) : t ≠ .undefined → Call blends [p, q] Ptr (Calc.mixOf t w ia p q) (fun q => [q]) (.typed t)
  | subtract (w : Fl) (ia : Bool) (p q : Ptr) : Call blends [p, q] Ptr (Calc.subtract w ia p q) (fun q => [q]) (.like p)
  | subOf (t : ColorType) (w : Fl) (ia : Bool) (p q : Ptr) : t ≠ .undefined → Call blends [p, q] Ptr (Calc.subOf t w ia p q) (fun q => [q]) (.typed t)
  | average (t : ColorType) (ia : Bool) (ps : List Ptr) : t ≠ .undefined → Call blends ps Ptr (Calc.average t ia ps) (fun q => [q]) (.typed t)
  | squared (p q : Ptr) (t : ColorType) : Call blends [p, q] Fl (Distance.euclidean_distance_squared p q t) (fun _ => []) (.typed t)
  | euclidean (p q : Ptr) (t : ColorType) : Call blends [p, q] Fl (Distance.euclidean_distance p q t) (fun _ => []) (.typed t)
  | weighted (p q : Ptr) : Call blends [p, q] Fl (Distance.euclidean_distance_weighted p q) (fun _ => []) (.typed .rgbDeep)
  | cie76 (p q : Ptr) : Call blends [p, q] Fl (Distance.cielab_delta_e_cie76 p q) (fun _ => []) (.typed .lab)
  | cie94 (kL k1 k2 kC kH : Fl) (p q : Ptr) : Call blends [p, q] Fl (Distance.cielab_delta_e_cie94 kL k1 k2 kC kH p q) (fun _ => []) (.typed .lab)
  | cie00 (kL k1 k2 kC kH : Fl) (p q : Ptr) : Call blends [p, q] Fl (Distance.cielab_delta_e_cie00 kL k1 k2 kC kH p q) (fun _ => []) (.typed .lab)
  | cmc (l c : Fl) (p q : Ptr) : Call blends [p, q] Fl (Distance.cmc_delta_e_lc84 l c p q) (fun _ => []) (.typed .lab)
  | saturateRgb (p : Ptr) (x : Fl) : Call blends [p] Ptr (Adjust.saturate_in_rgb_space p x) (fun q => [q]) (.like p)
  | saturateHsl (p : Ptr) (x : Fl) : Call blends [p] Ptr (Adjust.saturate_in_hsl_space p x) (fun q => [q]) (.like p)
  | luminateRgb (p : Ptr) (x : Fl) : Call blends [p] Ptr (Adjust.luminate_in_rgb_space p x) (fun q => [q]) (.like p)
  | luminateHsl (p : Ptr) (x : Fl) : Call blends [p] Ptr (Adjust.luminate_in_hsl_space p x) (fun q => [q]) (.like p)
  | combination (p : Ptr) (n : Int) : Call blends [p] (List Ptr) (Combine.create_combination p n) id (.like p)
  | complimentary (p : Ptr) : Call blends [p] Ptr (Combine.create_complimentary p) (fun q => [q]) (.like p)
  | triplet (p : Ptr) : Call blends [p] (List Ptr) (Combine.create_triplet p) id (.like p)
  | quartet (p : Ptr) : Call blends [p] (List Ptr) (Combine.create_quartet p) id (.like p)
  | quintet (p : Ptr) : Call blends [p] (List Ptr) (Combine.create_quintet p) id (.like p)
  | analogous (p : Ptr) (x : Fl) : Call blends [p] (List Ptr) (Combine.create_analogous p x) id (.like p)
  | monochromatic (p : Ptr) (mode : Int) (x : Fl) (n : Int) : Call blends [p] (List Ptr) (Combine.create_monochromatic p mode x n) id (.like p)
  | complimentarySplit (p : Ptr) (x : Fl) : Call blends [p] (List Ptr) (Combine.create_complimentary_split p x) id (.like p)

/-- Read the object at `i`, compute its new value and write it back. -/
def rewrite (i : Nat) (g : Color → Outcome Color) : Prog Unit := do
  let c ← load (some i)
  let d ← lift (g c)
  store (some i) d

/-- The functions that write to the object at `i`: setters, gamma correction, assignment and the adjustments that take a reference.
`alpha_multiply` and `alpha_divide` are only there with `raws`. -/
inductive Write (raws : Prop) : Nat → Prog Unit → Prop
  | setChannel (i k : Nat) (v : Fl) : Write raws i (rewrite i fun c => c.setChannel k v)
  | setComponent (i : Nat) (k : Int) (v : Fl) : Write raws i (rewrite i fun c => c.setComponent v k)
  | setAlpha (i : Nat) (a : Fl) : Write raws i (rewrite i fun c => ok (c.setAlpha a))
  | setSpace (i : Nat) (sp : Option Nat) : Write raws i (rewrite i fun c => ok (c.setSpace sp))
  | gamma (i : Nat) (g : Fl → Fl) : Write raws i (rewrite i fun c => ok (c.applyGamma g))
  | alphaMultiply (i : Nat) : raws → Write raws i (rewrite i fun c => ok c.alphaMultiply)
  | alphaDivide (i : Nat) : raws → Write raws i (rewrite i fun c => ok c.alphaDivide)
  /-- Assignment between objects of the same class; C++ overloading does not offer others. -/
  | assign (i : Nat) (q : Ptr) : Write raws i (do
      let o ← load q
      rewrite i fun c => if c.cls = o.cls then ok (c.assign o) else .ub)
  | saturateRgb (i : Nat) (x : Fl) : Write raws i (Adjust.byReference Adjust.saturate_in_rgb_space i x)
  | saturateHsl (i : Nat) (x : Fl) : Write raws i (Adjust.byReference Adjust.saturate_in_hsl_space i x)
  | luminateRgb (i : Nat) (x : Fl) : Write raws i (Adjust.byReference Adjust.luminate_in_rgb_space i x)
  | luminateHsl (i : Nat) (x : Fl) : Write raws i (Adjust.byReference Adjust.luminate_in_hsl_space i x)

/-- The memories a program can reach: it starts without colours and makes calls that do not end in undefined behaviour (they may throw, and the program may go on).
In between it may do anything with colour spaces, white points and gamma curves.  The adaptation functions are covered for every core computation. -/
inductive Session (blends raws : Prop) : Heap → Prop
  | start (w : World) : Session blends raws ⟨w, []⟩
  | call (h : Heap) (args : List Ptr) (α : Type) (p : Prog α) (res : α → List Ptr) (pr : Promise) : Session blends raws h → Call blends args α p res pr → (p h).1 ≠ .ub → Session blends raws (p h).2
  | write (h : Heap) (i : Nat) (p : Prog Unit) : Session blends raws h → Write raws i p → (p h).1 ≠ .ub → Session blends raws (p h).2
  | adapt (h : Heap) (f : Adapt.Core) (a : Nat) (p : Ptr) (target : Option Nat) : Session blends raws h → (Adapt.adapt f a p target h).1 ≠ .ub → Session blends raws (Adapt.adapt f a p target h).2
  | world (h : Heap) (w : World) : Session blends raws h → Session blends raws ⟨w, h.colors⟩

/-- Number of components, and limits, of the types. -/
def shape : ColorType → Nat × ℝ × ℝ
  | .rgbTrue => (3, 0, 255)
  | .rgbDeep => (3, 0, 1)
  | .greyTrue => (1, 0, 255)
  | .greyDeep => (1, 0, 1)
  | .cmyk => (4, 0, 1)
  | .hsi => (3, 0, 1)
  | .hsv => (3, 0, 1)
  | .hsl => (3, 0, 1)
  | .hcy => (3, 0, 1)
  | .xyz => (3, 0, 100)
  | .xyy => (3, 0, 100)
  | .cieluv => (3, -100, 100)
  | .lab => (3, -128, 128)
  | .lchAb => (3, 0, 100)
  | .lchUv => (3, 0, 100)
  | .undefined => (0, 0, 1)

/-- The object is an instance of one of the fifteen classes, says so, and has the components and limits of that class. -/
structure WellFormed (c : Color) : Prop where
  defined : c.ctype ≠ .undefined
  cls : c.cls = c.ctype
  len : c.comps.length = (shape c.ctype).1
  minv : c.minv = fin (shape c.ctype).2.1
  maxv : c.maxv = fin (shape c.ctype).2.2

/-- All objects are well-formed. -/
def Sound (h : Heap) : Prop := ∀ (i : Nat) c, h.colors[i]? = some c → WellFormed c

end

end SessionSpec

import Verif.SessionSpec
import Verif.Props.Adaptations

/-!
# Careful programs

The specification for `Verif/Props/Safety.lean`: what a program has to see to before each call.  Nothing here looks at what the calls do: the conditions speak about the objects and colour space definitions
that exist before the call, and about the classes that take part.
-/

open Outcome Fl Prog ObjectSpec ConvSpec SessionSpec

namespace SafetySpec
variable [FloatModel]

/-- The pointer points to an object of class `t`.  `cie` says whether the CIE classes take part in the call: only then may the object be of one of them, and only then it must have a colour space definition
with a white point, a gamma curve and matrices. -/
def Ready (cie : Prop) (h : Heap) (t : ColorType) (p : Ptr) : Prop := ∃ i c, p = some i ∧ h.colors[i]? = some c ∧ c.ctype = t ∧ (Cie t → cie) ∧ (cie → h.world.Usable c.space)

/-- Classes `convertTo` knows as targets: all but the two LCH classes. -/
def Convertible (t : ColorType) : Prop := t ≠ .undefined ∧ t ≠ .lchAb ∧ t ≠ .lchUv

/-- The calls a careful program makes in memory `h`: all calls of `SessionSpec.Call`, with what the program has to see to.  CIEDE2000 is only there with `hues`. -/
inductive Careful (cie hues : Prop) (h : Heap) : (α : Type) → Prog α → (α → List Ptr) → Prop
  | create (t : ColorType) (vs : List Fl) (al : Fl) (sp : Option Nat) : t ≠ .undefined → vs.length = Color.count t → (Cie t → cie) → (cie → h.world.Usable sp) →
      Careful cie hues h Ptr (do alloc (← lift (Color.construct t vs al sp))) (fun q => [q])
  | hexInt (code : BitVec 32) (sp : Option Nat) : (cie → h.world.Usable sp) → Careful cie hues h Ptr (Predefined.make code sp) (fun q => [q])
  /-- No `#` but the first character. -/
  | hexString (s : List Char) (sp : Option Nat) : '#' ∉ s.tail → (cie → h.world.Usable sp) → Careful cie hues h Ptr (do alloc (← lift (Color.fromHexString s sp))) (fun q => [q])
  | copy (p : Ptr) (s : ColorType) : Ready cie h s p → Careful cie hues h Ptr (do alloc (← load p).copy) (fun q => [q])
  | fromBase (t : ColorType) (p : Ptr) (s : ColorType) : t ≠ .undefined → Ready cie h s p → Careful cie hues h Ptr (do alloc (← lift (Color.fromBase t (← load p)))) (fun q => [q])
  | convertTo (p : Ptr) (s t : ColorType) : Ready cie h s p → (Cie t → cie) → Careful cie hues h Ptr (Converter.convertTo p t) (fun q => [q])
  | dispatcher (p : Ptr) (s t : ColorType) : t ≠ .undefined → Ready cie h s p → (Cie t → cie) → Careful cie hues h Ptr (Conv.dispatcher t p) (fun q => [q])
  /-- The object is of the class the function is for. -/
  | direct (p : Ptr) (s t : ColorType) : s ≠ t → t ≠ .undefined → Ready cie h s p → (Cie t → cie) → Careful cie hues h Ptr (Conv.direct s t p) (fun q => [q])
  /-- Null pointers are allowed. -/
  | blend (us ud ub : Bool) (f : Color → Color → Nat → Fl → Fl → Fl) (p q : Ptr) (s t : ColorType) : (p = none ∨ Ready cie h s p) → (q = none ∨ Ready cie h t q) →
      Careful cie hues h Ptr (Blend.operator us ud ub f p q) (fun q => [q])
  | hue (us ud : Bool) (p q : Ptr) (s t : ColorType) : Ready cie h s p → Ready cie h t q → Careful cie hues h Ptr (ColorBlend.hue us ud p q) (fun q => [q])
  | saturation (us ud : Bool) (p q : Ptr) (s t : ColorType) : Ready cie h s p → Ready cie h t q → Careful cie hues h Ptr (ColorBlend.saturation us ud p q) (fun q => [q])
  | color (us ud : Bool) (p q : Ptr) (s t : ColorType) : Ready cie h s p → Ready cie h t q → Careful cie hues h Ptr (ColorBlend.color us ud p q) (fun q => [q])
  | luminosity (us ud : Bool) (p q : Ptr) (s t : ColorType) : Ready cie h s p → Ready cie h t q → Careful cie hues h Ptr (ColorBlend.luminosity us ud p q) (fun q => [q])
  | add (w1 w2 : Fl) (ia : Bool) (p q : Ptr) (s t : ColorType) : Ready cie h s p → Ready cie h t q → Careful cie hues h Ptr (Calc.add w1 w2 ia p q) (fun q => [q])
  | addOf (t : ColorType) (w1 w2 : Fl) (ia : Bool) (p q : Ptr) : t ≠ .undefined → Ready cie h t p → Ready cie h t q → Careful cie hues h Ptr (Calc.addOf t w1 w2 ia p q) (fun q => [q])
  | mix (w : Fl) (ia : Bool) (p q : Ptr) (s t : ColorType) : Ready cie h s p → Ready cie h t q → Careful cie hues h Ptr (Calc.mix w ia p q) (fun q => [q])
  | mixOf (t : ColorType) (w : Fl) (ia : Bool) (p q : Ptr) : t ≠ .undefined → Ready cie h t p → Ready cie h t q → Careful cie hues h Ptr (Calc.mixOf t w ia p q) (fun q => [q])
  | subtract (w : Fl) (ia : Bool) (p q : Ptr) (s t : ColorType) : Ready cie h s p → Ready cie h t q → Careful cie hues h Ptr (Calc.subtract w ia p q) (fun q => [q])
  | subOf (t : ColorType) (w : Fl) (ia : Bool) (p q : Ptr) : t ≠ .undefined → Ready cie h t p → Ready cie h t q → Careful cie hues h Ptr (Calc.subOf t w ia p q) (fun q => [q])
  | average (t : ColorType) (ia : Bool) (ps : List Ptr) : t ≠ .undefined → (Cie t → cie) → (∀ p ∈ ps, Ready cie h t p) → Careful cie hues h Ptr (Calc.average t ia ps) (fun q => [q])
  | squared (p q : Ptr) (c s t : ColorType) : (c = .cieluv → cie) → Ready cie h s p → Ready cie h t q → Careful cie hues h Fl (Distance.euclidean_distance_squared p q c) (fun _ => [])
  | euclidean (p q : Ptr) (c s t : ColorType) : Ready cie h s p → Ready cie h t q → Careful cie hues h Fl (Distance.euclidean_distance p q c) (fun _ => [])
  | weighted (p q : Ptr) (s t : ColorType) : Ready cie h s p → Ready cie h t q → Careful cie hues h Fl (Distance.euclidean_distance_weighted p q) (fun _ => [])
  | cie76 (p q : Ptr) (s t : ColorType) : cie → Ready cie h s p → Ready cie h t q → Careful cie hues h Fl (Distance.cielab_delta_e_cie76 p q) (fun _ => [])
  | cie94 (kL k1 k2 kC kH : Fl) (p q : Ptr) (s t : ColorType) : cie → Ready cie h s p → Ready cie h t q → Careful cie hues h Fl (Distance.cielab_delta_e_cie94 kL k1 k2 kC kH p q) (fun _ => [])
  | cie00 (kL k1 k2 kC kH : Fl) (p q : Ptr) (s t : ColorType) : hues → cie → Ready cie h s p → Ready cie h t q → Careful cie hues h Fl (Distance.cielab_delta_e_cie00 kL k1 k2 kC kH p q) (fun _ => [])
  | cmc (l c : Fl) (p q : Ptr) (s t : ColorType) : cie → Ready cie h s p → Ready cie h t q → Careful cie hues h Fl (Distance.cmc_delta_e_lc84 l c p q) (fun _ => [])
  | saturateRgb (p : Ptr) (v : Fl) (s : ColorType) : Ready cie h s p → Careful cie hues h Ptr (Adjust.saturate_in_rgb_space p v) (fun q => [q])
  | saturateHsl (p : Ptr) (v : Fl) (s : ColorType) : Ready cie h s p → Careful cie hues h Ptr (Adjust.saturate_in_hsl_space p v) (fun q => [q])
  | luminateRgb (p : Ptr) (v : Fl) (s : ColorType) : Ready cie h s p → Careful cie hues h Ptr (Adjust.luminate_in_rgb_space p v) (fun q => [q])
  | luminateHsl (p : Ptr) (v : Fl) (s : ColorType) : Ready cie h s p → Careful cie hues h Ptr (Adjust.luminate_in_hsl_space p v) (fun q => [q])
  | combination (p : Ptr) (n : Int) (s : ColorType) : Ready cie h s p → Careful cie hues h (List Ptr) (Combine.create_combination p n) id
  | complimentary (p : Ptr) (s : ColorType) : Ready cie h s p → Careful cie hues h Ptr (Combine.create_complimentary p) (fun q => [q])
  | triplet (p : Ptr) (s : ColorType) : Ready cie h s p → Careful cie hues h (List Ptr) (Combine.create_triplet p) id
  | quartet (p : Ptr) (s : ColorType) : Ready cie h s p → Careful cie hues h (List Ptr) (Combine.create_quartet p) id
  | quintet (p : Ptr) (s : ColorType) : Ready cie h s p → Careful cie hues h (List Ptr) (Combine.create_quintet p) id
  | analogous (p : Ptr) (v : Fl) (s : ColorType) : Ready cie h s p → Careful cie hues h (List Ptr) (Combine.create_analogous p v) id
  /-- Not for the LCH classes. -/
  | monochromatic (p : Ptr) (mode : Int) (v : Fl) (n : Int) (s : ColorType) : Convertible s → Ready cie h s p → Careful cie hues h (List Ptr) (Combine.create_monochromatic p mode v n) id
  /-- Not for the LCH classes. -/
  | complimentarySplit (p : Ptr) (v : Fl) (s : ColorType) : Convertible s → Ready cie h s p → Careful cie hues h (List Ptr) (Combine.create_complimentary_split p v) id

/-- The writes a careful program makes in memory `h`.  `alpha_multiply` and `alpha_divide` are only there with `raws`. -/
inductive CarefulWrite (raws : Prop) (h : Heap) : Nat → Prog Unit → Prop
  | setChannel (i k : Nat) (v : Fl) : i < h.colors.length → CarefulWrite raws h i (rewrite i fun c => c.setChannel k v)
  | setComponent (i : Nat) (k : Int) (v : Fl) : i < h.colors.length → CarefulWrite raws h i (rewrite i fun c => c.setComponent v k)
  | setAlpha (i : Nat) (a : Fl) : i < h.colors.length → CarefulWrite raws h i (rewrite i fun c => ok (c.setAlpha a))
  | setSpace (i : Nat) (sp : Option Nat) : i < h.colors.length → CarefulWrite raws h i (rewrite i fun c => ok (c.setSpace sp))
  | gamma (i : Nat) (g : Fl → Fl) : i < h.colors.length → CarefulWrite raws h i (rewrite i fun c => ok (c.applyGamma g))
  | alphaMultiply (i : Nat) : raws → i < h.colors.length → CarefulWrite raws h i (rewrite i fun c => ok c.alphaMultiply)
  | alphaDivide (i : Nat) : raws → i < h.colors.length → CarefulWrite raws h i (rewrite i fun c => ok c.alphaDivide)
  /-- Both objects exist and are of the same class. -/
  | assign (i j : Nat) (c o : Color) : h.colors[i]? = some c → h.colors[j]? = some o → c.ctype = o.ctype → CarefulWrite raws h i (do
      let o ← load (some j)
      rewrite i fun c => if c.cls = o.cls then ok (c.assign o) else .ub)
  /-- Not for the LCH classes. -/
  | saturateRgb (i : Nat) (v : Fl) (cie : Prop) (s : ColorType) : Convertible s → Ready cie h s (some i) → CarefulWrite raws h i (Adjust.byReference Adjust.saturate_in_rgb_space i v)
  | saturateHsl (i : Nat) (v : Fl) (cie : Prop) (s : ColorType) : Convertible s → Ready cie h s (some i) → CarefulWrite raws h i (Adjust.byReference Adjust.saturate_in_hsl_space i v)
  | luminateRgb (i : Nat) (v : Fl) (cie : Prop) (s : ColorType) : Convertible s → Ready cie h s (some i) → CarefulWrite raws h i (Adjust.byReference Adjust.luminate_in_rgb_space i v)
  | luminateHsl (i : Nat) (v : Fl) (cie : Prop) (s : ColorType) : Convertible s → Ready cie h s (some i) → CarefulWrite raws h i (Adjust.byReference Adjust.luminate_in_hsl_space i v)

/-- An adaptation a careful program makes: the object has a usable colour space definition, the target is not null, and the two methods that normalise are not used with a grey. -/
def CarefulAdapt (q : AdaptSpec.Method) (h : Heap) (p : Ptr) : Prop := ∃ s, Ready True h s p ∧ (q.Normalises → s ≠ .greyTrue ∧ s ≠ .greyDeep)

/-- The memories a careful program can reach.  There is no condition on how the calls end. -/
inductive CarefulSession (hues raws : Prop) : Heap → Prop
  | start (w : World) : CarefulSession hues raws ⟨w, []⟩
  | call (h : Heap) (cie : Prop) (α : Type) (p : Prog α) (res : α → List Ptr) : CarefulSession hues raws h → Careful cie hues h α p res → CarefulSession hues raws (p h).2
  | write (h : Heap) (i : Nat) (p : Prog Unit) : CarefulSession hues raws h → CarefulWrite raws h i p → CarefulSession hues raws (p h).2
  | adapt (h : Heap) (q : AdaptSpec.Method) (a t : Nat) (p : Ptr) : CarefulSession hues raws h → CarefulAdapt q h p → CarefulSession hues raws (q.fn a p (some t) h).2
  /-- A colour object may also be made without a usable colour space definition. -/
  | create (h : Heap) (t : ColorType) (vs : List Fl) (al : Fl) (sp : Option Nat) : CarefulSession hues raws h → t ≠ .undefined → vs.length = Color.count t →
      CarefulSession hues raws ((do alloc (← lift (Color.construct t vs al sp)) : Prog Ptr) h).2
  | world (h : Heap) (w : World) : CarefulSession hues raws h → CarefulSession hues raws ⟨w, h.colors⟩

end SafetySpec

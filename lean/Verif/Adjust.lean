import Verif.Converter

/-!
# Adjustments and combinations

Model of `ColorMagic/manipulation/color_adjustments.cpp` and `ColorMagic/manipulation/color_combinations.cpp`.

`static_cast<hsl*>` of a converted colour is its address.  The result vectors hold pointers and are lists.
-/

open Outcome Prog Fl

namespace Adjust
variable [FloatModel]

/-- color_adjustments.cpp:9-19 -/
noncomputable def saturate_in_rgb_space (p : Ptr) (percentage : Fl) : Prog Ptr := do
  let q ← Converter.convertTo p .rgbDeep
  let c ← load q
  let r ← lift (c.getComponent 0)
  let g ← lift (c.getComponent 1)
  let b ← lift (c.getComponent 2)
  let L := lit 0.299 * r + lit 0.587 * g + lit 0.114 * b
  let o ← load p
  let n ← lift (Color.construct .rgbDeep [r - percentage * (L - r), g - percentage * (L - g), b - percentage * (L - b)] c.alpha o.space)
  let n ← alloc n
  Converter.convertTo n o.ctype

/-- color_adjustments.cpp:26-36.  For an HSL colour the conversion returns the colour itself, which is then written to. -/
noncomputable def saturate_in_hsl_space (p : Ptr) (percentage : Fl) : Prog Ptr :=
  if feq percentage 0 then pure p
  else do
    let q ← Converter.convertTo p .hsl
    let c ← load q
    let s ← lift (c.getComponent 1)
    let c' ← lift (c.setChannel 1 (s * (1 + percentage)))
    store q c'
    let o ← load p
    Converter.convertTo q o.ctype

/-- color_adjustments.cpp:43-53 -/
noncomputable def luminate_in_rgb_space (p : Ptr) (percentage : Fl) : Prog Ptr := do
  let q ← Converter.convertTo p .rgbDeep
  let c ← load q
  let r ← lift (c.getComponent 0)
  let g ← lift (c.getComponent 1)
  let b ← lift (c.getComponent 2)
  let factor := 1 + percentage
  let o ← load p
  let n ← lift (Color.construct .rgbDeep [r * factor, g * factor, b * factor] c.alpha o.space)
  let n ← alloc n
  Converter.convertTo n o.ctype

/-- color_adjustments.cpp:60-70 -/
noncomputable def luminate_in_hsl_space (p : Ptr) (percentage : Fl) : Prog Ptr :=
  if feq percentage 0 then pure p
  else do
    let q ← Converter.convertTo p .hsl
    let c ← load q
    let l ← lift (c.getComponent 2)
    let c' ← lift (c.setChannel 2 (l * (1 + percentage)))
    store q c'
    let o ← load p
    Converter.convertTo q o.ctype

/-- The variants that take a reference, color_adjustments.cpp:4-7, 21-24, 38-41 and 55-58: `color = *f(&color, percentage)`.  The assignment is the implicit
one of `color_base`, which copies all members; the class of the object stays. -/
noncomputable def byReference (f : Ptr → Fl → Prog Ptr) (i : Nat) (percentage : Fl) : Prog Unit := do
  let q ← f (some i) percentage
  let r ← load q
  let c ← load (some i)
  store (some i) { r with cls := c.cls }

end Adjust

namespace Combine
variable [FloatModel]

/-- `convertTo(new hsl(hue, color_hsl->saturation(), color_hsl->lightness(), color->alpha(), color->get_rgb_color_space()), color->get_color_type())` with the hue computed by
`f` from the one of `color_hsl`; color_combinations.cpp:39-40, 54 and 56. -/
noncomputable def turned (p q : Ptr) (f : Fl → Fl) : Prog Ptr := do
  let c ← load q
  let x ← lift (c.getComponent 0)
  let y ← lift (c.getComponent 1)
  let z ← lift (c.getComponent 2)
  let o ← load p
  let n ← lift (Color.construct .hsl [f x, y, z] o.alpha o.space)
  let n ← alloc n
  Converter.convertTo n o.ctype

/-- The loop at color_combinations.cpp:37-41: `n` passes, beginning with number `i`. -/
noncomputable def turns (p q : Ptr) (degrees : Fl) : Nat → Nat → Prog (List Ptr)
  | 0, _ => pure []
  | n + 1, i => do
    let r ← turned p q (fun x => x + rnd i * degrees)
    let rs ← turns p q degrees n (i + 1)
    pure (r :: rs)

/-- color_combinations.cpp:24-44.  For a negative number the loop body is not executed. -/
noncomputable def create_combination (p : Ptr) (n : Int) : Prog (List Ptr) :=
  if n = 0 ∨ n = 1 ∨ n > 360 then Prog.throwNewInvalid
  else do
    let q ← Converter.convertTo p .hsl
    let rs ← turns p q (360 / rnd n) (n - 1).toNat 1
    pure (p :: rs)

/-- color_combinations.cpp:4-7 -/
noncomputable def create_complimentary (p : Ptr) : Prog Ptr := do
  let v ← create_combination p 2
  match v[1]? with
  | some r => pure r
  | none => lift .ub

/-- color_combinations.cpp:9-12 -/
noncomputable def create_triplet (p : Ptr) : Prog (List Ptr) := create_combination p 3

/-- color_combinations.cpp:14-17 -/
noncomputable def create_quartet (p : Ptr) : Prog (List Ptr) := create_combination p 4

/-- color_combinations.cpp:19-22 -/
noncomputable def create_quintet (p : Ptr) : Prog (List Ptr) := create_combination p 5

/-- color_combinations.cpp:46-59 -/
noncomputable def create_analogous (p : Ptr) (distance : Fl) : Prog (List Ptr) :=
  if feq distance 0 ∨ distance > 360 / 3 then Prog.throwNewInvalid
  else do
    let q ← Converter.convertTo p .hsl
    let a ← turned p q (fun x => x - distance)
    let b ← turned p q (fun x => x + distance)
    pure [a, p, b]

/-- A copy of the HSL colour behind `q` with alpha and colour space of the colour behind `p`, as made at color_combinations.cpp:78, 81 and 84. -/
noncomputable def renewed (p q : Ptr) : Prog Ptr := do
  let c ← load q
  let x ← lift (c.getComponent 0)
  let y ← lift (c.getComponent 1)
  let z ← lift (c.getComponent 2)
  let o ← load p
  let n ← lift (Color.construct .hsl [x, y, z] o.alpha o.space)
  alloc n

/-- The body of the loop at color_combinations.cpp:72-89; `last` is the last element of `combination`. -/
noncomputable def shade (p : Ptr) (t : ColorType) (mode : Int) (amount : Fl) (last : Ptr) : Prog Ptr := do
  let q ← Converter.convertTo last .hsl
  if mode = 0 then do
    let m ← renewed p q
    let m ← Adjust.saturate_in_hsl_space m amount
    Converter.convertTo m t
  else if mode = 1 then do
    let m ← renewed p q
    let m ← Adjust.luminate_in_hsl_space m amount
    Converter.convertTo m t
  else if mode = 2 then do
    let m ← renewed p q
    let m ← Adjust.saturate_in_hsl_space m amount
    let m ← Adjust.luminate_in_hsl_space m amount
    Converter.convertTo m t
  else Prog.throwNewInvalid

/-- The loop at color_combinations.cpp:72-89: `n` passes. -/
noncomputable def shades (p : Ptr) (t : ColorType) (mode : Int) (amount : Fl) : Nat → Ptr → Prog (List Ptr)
  | 0, _ => pure []
  | n + 1, last => do
    let r ← shade p t mode amount last
    let rs ← shades p t mode amount n r
    pure (r :: rs)

/-- color_combinations.cpp:61-92 -/
noncomputable def create_monochromatic (p : Ptr) (mode : Int) (amount : Fl) (color_count : Int) : Prog (List Ptr) :=
  if amount < 0 ∨ amount > 1 ∨ color_count ≤ 0 then Prog.throwNewInvalid
  else do
    let o ← load p
    let rs ← shades p o.ctype mode (amount * (-1)) (color_count - 1).toNat p
    pure (p :: rs)

/-- color_combinations.cpp:94-106.  The conversion at line 97 is not used. -/
noncomputable def create_complimentary_split (p : Ptr) (amount : Fl) : Prog (List Ptr) := do
  let _ ← Converter.convertTo p .hsl
  let c ← create_complimentary p
  let v ← create_analogous c amount
  match v[0]?, v[2]? with
  | some a, some b => pure [a, p, b]
  | _, _ => lift .ub

end Combine

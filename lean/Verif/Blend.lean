import Verif.Converter

/-!
# Compositing and blending

Model of `ColorMagic/manipulation/base_color_blend.h`, `porter_duff.cpp` and `color_blend.h/.cpp`.  Generated from the lists of operators and
modes by a script that is not part of the project.

C++ leaves the order open in which the two arguments `to_rgb_deep(source)` and `to_rgb_deep(destination)` are evaluated; the model converts the
source first.  Neither conversion changes an existing object (C34), so that only the addresses of the new objects could differ.
The objects `new porter_duff()` and `new color_blend()` carry no data and are left out.
-/

open Outcome Prog Fl

namespace Blend

section
variable [FloatModel]

/-- base_color_blend.h:57-66: the loop over the components; `f i` is what the `i`-th call of `both_function` computes. `vec[i]` is not checked. -/
noncomputable def loop (s d : Color) (srcArea destArea bothArea : Fl) (us ud : Bool) (f : Nat → Fl → Fl → Fl) : Nat → Nat → Color → Outcome Color
  | 0, _, r => ok r
  | n + 1, i, r =>
    match s.comps[i]?, d.comps[i]? with
    | some sc, some dc => do
      let sProduct := srcArea * (if us then sc else 0)
      let dProduct := destArea * (if ud then dc else 0)
      let bProduct := bothArea * f i sc dc
      let r ← r.setComponent (sProduct + dProduct + bProduct) i
      loop s d srcArea destArea bothArea us ud f n (i + 1) r
    | _, _ => ub

/-- base_color_blend.h:44-70 `general_porter_duff` after the checks, on the two colours. -/
noncomputable def gpdVal (s d : Color) (us ud ub : Bool) (f : Nat → Fl → Fl → Fl) : Outcome Color := do
  let srcArea := s.alpha * (1 - d.alpha)
  let destArea := d.alpha * (1 - s.alpha)
  let bothArea := s.alpha * d.alpha
  let resultingAlpha := srcArea * (if us then 1 else 0) + destArea * (if ud then 1 else 0) + bothArea * (if ub then 1 else 0)
  let r ← Color.constructGrey .rgbDeep 0 resultingAlpha s.space
  let r ← loop s d srcArea destArea bothArea us ud f r.comps.length 0 r
  ok r.alphaDivide

/-- base_color_blend.h:37-71 `general_porter_duff`. -/
noncomputable def generalPorterDuff (ps pd : Ptr) (us ud ub : Bool) (f : Nat → Fl → Fl → Fl) : Prog Ptr :=
  if ps = none then throwNewInvalid
  else if pd = none then throwNewInvalid
  else do
    let s ← load ps
    let d ← load pd
    if s.space ≠ d.space then throwNewInvalid
    else do
      let r ← lift (gpdVal s d us ud ub f)
      alloc r

/-- The common body of all operators and componentwise modes, e.g. porter_duff.cpp:4-20, color_blend.cpp:4-20 (and color_blend.cpp:22-39, where the
function depends on the alpha values of the two arguments). -/
noncomputable def operator (us ud ub : Bool) (f : Color → Color → Nat → Fl → Fl → Fl) (source destination : Ptr) : Prog Ptr :=
  if source = none then throwNewInvalid
  else if destination = none then throwNewInvalid
  else do
    let s ← load source
    let d ← load destination
    if s.space ≠ d.space then throwNewInvalid
    else do
      let sr ← Converter.to_rgb_deep source
      let dr ← Converter.to_rgb_deep destination
      let r ← generalPorterDuff sr dr us ud ub (f s d)
      Converter.convertTo r s.ctype

end

end Blend

namespace PorterDuff

section
variable [FloatModel]

/-- porter_duff.cpp:4-20 `src` -/
noncomputable def src : Ptr → Ptr → Prog Ptr := Blend.operator true false true (fun _ _ _ s _ => s)

/-- porter_duff.cpp:22-38 `dest` -/
noncomputable def dest : Ptr → Ptr → Prog Ptr := Blend.operator false true true (fun _ _ _ _ d => d)

/-- porter_duff.cpp:40-56 `atop` -/
noncomputable def atop : Ptr → Ptr → Prog Ptr := Blend.operator false true true (fun _ _ _ s _ => s)

/-- porter_duff.cpp:58-74 `dest_atop` -/
noncomputable def dest_atop : Ptr → Ptr → Prog Ptr := Blend.operator true false true (fun _ _ _ _ d => d)

/-- porter_duff.cpp:76-92 `over` -/
noncomputable def over : Ptr → Ptr → Prog Ptr := Blend.operator true true true (fun _ _ _ s _ => s)

/-- porter_duff.cpp:94-110 `dest_over` -/
noncomputable def dest_over : Ptr → Ptr → Prog Ptr := Blend.operator true true true (fun _ _ _ _ d => d)

/-- porter_duff.cpp:112-128 `in` -/
noncomputable def in_ : Ptr → Ptr → Prog Ptr := Blend.operator false false true (fun _ _ _ s _ => s)

/-- porter_duff.cpp:130-146 `dest_in` -/
noncomputable def dest_in : Ptr → Ptr → Prog Ptr := Blend.operator false false true (fun _ _ _ _ d => d)

/-- porter_duff.cpp:148-164 `out` -/
noncomputable def out : Ptr → Ptr → Prog Ptr := Blend.operator true false false (fun _ _ _ _ _ => 0)

/-- porter_duff.cpp:166-182 `dest_out` -/
noncomputable def dest_out : Ptr → Ptr → Prog Ptr := Blend.operator false true false (fun _ _ _ _ _ => 0)

/-- porter_duff.cpp:184-200 `x_or` -/
noncomputable def x_or : Ptr → Ptr → Prog Ptr := Blend.operator true true false (fun _ _ _ _ _ => 0)

/-- porter_duff.cpp:202-218 `clear` -/
noncomputable def clear : Ptr → Ptr → Prog Ptr := Blend.operator false false false (fun _ _ _ _ _ => 0)

end

end PorterDuff

namespace ColorBlend

section
variable [FloatModel]

/-- color_blend.h:647-660 `dissolve_func`; `rand` is what `rand()` returns. -/
noncomputable def dissolve_func (rand : Nat) (s d alphaDiff : Fl) : Fl :=
  let randVal := fin (rand % 101 : Nat)
  let threshold := 25
  if alphaDiff > 0 then (if randVal ≥ threshold then s else d) else (if randVal ≥ threshold then d else s)

/-- color_blend.h:662-665 -/
noncomputable def multiply_func (s d : Fl) : Fl := s * d

/-- color_blend.h:667-670 -/
noncomputable def screen_func (s d : Fl) : Fl := 1 - (1 - d) * (1 - s)

/-- color_blend.h:713-717 -/
noncomputable def hard_light_func (s d : Fl) : Fl := if s ≤ fin 0.5 then d * 2 * s else 1 - (1 - d) * (1 - 2 * (s - fin 0.5))

/-- color_blend.h:672-675 -/
noncomputable def overlay_func (s d : Fl) : Fl := hard_light_func d s

/-- color_blend.h:677-680 -/
noncomputable def darken_func (s d : Fl) : Fl := fmin s d

/-- color_blend.h:682-685 -/
noncomputable def lighten_func (s d : Fl) : Fl := fmax s d

/-- color_blend.h:687-693 -/
noncomputable def color_dodge_func (s d : Fl) : Fl :=
  if feq d 0 then 0 else if feq s 1 then 1 else
  let tmp := d / (1 - s)
  if tmp ≤ 1 then tmp else 1

/-- color_blend.h:695-698 -/
noncomputable def linear_dodge_func (s d : Fl) : Fl := s + d

/-- color_blend.h:700-706 -/
noncomputable def color_burn_func (s d : Fl) : Fl :=
  if feq d 1 then 0 else if feq s 0 then 1 else
  let tmp := (1 - d) / s
  if tmp ≤ 1 then tmp else 1

/-- color_blend.h:708-711 -/
noncomputable def linear_burn_func (s d : Fl) : Fl := d + s - 1

/-- color_blend.h:719-723 -/
noncomputable def soft_light_func (s d : Fl) : Fl := if s ≤ fin 0.5 then d * (s + fin 0.5) else 1 - (1 - d) * (1 * (s - fin 0.5))

/-- color_blend.h:725-739 -/
noncomputable def vivid_light_func (s d : Fl) : Fl :=
  if s ≤ fin 0.5 then (if feq d 0 then 0 else if feq s (fin 0.5) then 1 else d / (1 - 2 * s))
  else (if feq d 1 then 1 else if feq s 1 then 0 else 1 - (1 - d) / (2 * (s - fin 0.5)))

/-- color_blend.h:741-745 -/
noncomputable def linear_light_func (s d : Fl) : Fl := if s ≤ fin 0.5 then d + 2 * s - 1 else d + 2 * (s - fin 0.5)

/-- color_blend.h:747-751 -/
noncomputable def pin_light_func (s d : Fl) : Fl := if s ≤ fin 0.5 then fmin d (2 * s) else fmax d (2 * (s - fin 0.5))

/-- color_blend.h:753-757 -/
noncomputable def hard_mix_func (s d : Fl) : Fl := if s < 1 - d then 0 else 1

/-- color_blend.h:759-762 -/
noncomputable def difference_func (s d : Fl) : Fl := Fl.abs (d - s)

/-- color_blend.h:764-767 -/
noncomputable def subtract_func (s d : Fl) : Fl := s - d

/-- color_blend.h:769-774 -/
noncomputable def divide_func (s d : Fl) : Fl := if feq d 0 then 0 else if feq s 0 then 1 else d / s

/-- color_blend.h:776-779 -/
noncomputable def plus_lighter_func (s d : Fl) : Fl := linear_dodge_func s d

/-- color_blend.h:781-784 -/
noncomputable def plus_darker_func (s d : Fl) : Fl := linear_dodge_func s d - 1

/-- color_blend.h:786-789 -/
noncomputable def exclusion_func (s d : Fl) : Fl := d + s - 2 * d * s

/-- color_blend.cpp:4-20 `normal` -/
noncomputable def normal (us ud : Bool) : Ptr → Ptr → Prog Ptr := Blend.operator us ud true (fun _ _ _ s _ => s)

/-- color_blend.cpp:22-39 `dissolve`; `rand i` is what the `i`-th call of `rand()` returns. -/
noncomputable def dissolve (rand : Nat → Nat) (us ud : Bool) : Ptr → Ptr → Prog Ptr := Blend.operator us ud true (fun sc dc i s d => dissolve_func (rand i) s d (sc.alpha - dc.alpha))

/-- color_blend.cpp:41-57 `multiply` -/
noncomputable def multiply (us ud : Bool) : Ptr → Ptr → Prog Ptr := Blend.operator us ud true (fun _ _ _ s d => multiply_func s d)

/-- color_blend.cpp:59-78 `screen` -/
noncomputable def screen (us ud : Bool) : Ptr → Ptr → Prog Ptr := Blend.operator us ud true (fun _ _ _ s d => screen_func s d)

/-- color_blend.cpp:80-99 `overlay` -/
noncomputable def overlay (us ud : Bool) : Ptr → Ptr → Prog Ptr := Blend.operator us ud true (fun _ _ _ s d => overlay_func s d)

/-- color_blend.cpp:101-117 `darken` -/
noncomputable def darken (us ud : Bool) : Ptr → Ptr → Prog Ptr := Blend.operator us ud true (fun _ _ _ s d => darken_func s d)

/-- color_blend.cpp:119-135 `lighten` -/
noncomputable def lighten (us ud : Bool) : Ptr → Ptr → Prog Ptr := Blend.operator us ud true (fun _ _ _ s d => lighten_func s d)

/-- color_blend.cpp:137-153 `color_dodge` -/
noncomputable def color_dodge (us ud : Bool) : Ptr → Ptr → Prog Ptr := Blend.operator us ud true (fun _ _ _ s d => color_dodge_func s d)

/-- color_blend.cpp:155-171 `linear_dodge` -/
noncomputable def linear_dodge (us ud : Bool) : Ptr → Ptr → Prog Ptr := Blend.operator us ud true (fun _ _ _ s d => linear_dodge_func s d)

/-- color_blend.cpp:173-189 `color_burn` -/
noncomputable def color_burn (us ud : Bool) : Ptr → Ptr → Prog Ptr := Blend.operator us ud true (fun _ _ _ s d => color_burn_func s d)

/-- color_blend.cpp:191-207 `linear_burn` -/
noncomputable def linear_burn (us ud : Bool) : Ptr → Ptr → Prog Ptr := Blend.operator us ud true (fun _ _ _ s d => linear_burn_func s d)

/-- color_blend.cpp:209-225 `hard_light` -/
noncomputable def hard_light (us ud : Bool) : Ptr → Ptr → Prog Ptr := Blend.operator us ud true (fun _ _ _ s d => hard_light_func s d)

/-- color_blend.cpp:227-243 `soft_light` -/
noncomputable def soft_light (us ud : Bool) : Ptr → Ptr → Prog Ptr := Blend.operator us ud true (fun _ _ _ s d => soft_light_func s d)

/-- color_blend.cpp:245-261 `vivid_light` -/
noncomputable def vivid_light (us ud : Bool) : Ptr → Ptr → Prog Ptr := Blend.operator us ud true (fun _ _ _ s d => vivid_light_func s d)

/-- color_blend.cpp:263-279 `linear_light` -/
noncomputable def linear_light (us ud : Bool) : Ptr → Ptr → Prog Ptr := Blend.operator us ud true (fun _ _ _ s d => linear_light_func s d)

/-- color_blend.cpp:281-297 `pin_light` -/
noncomputable def pin_light (us ud : Bool) : Ptr → Ptr → Prog Ptr := Blend.operator us ud true (fun _ _ _ s d => pin_light_func s d)

/-- color_blend.cpp:299-315 `hard_mix` -/
noncomputable def hard_mix (us ud : Bool) : Ptr → Ptr → Prog Ptr := Blend.operator us ud true (fun _ _ _ s d => hard_mix_func s d)

/-- color_blend.cpp:317-333 `difference` -/
noncomputable def difference (us ud : Bool) : Ptr → Ptr → Prog Ptr := Blend.operator us ud true (fun _ _ _ s d => difference_func s d)

/-- color_blend.cpp:335-351 `subtract` -/
noncomputable def subtract (us ud : Bool) : Ptr → Ptr → Prog Ptr := Blend.operator us ud true (fun _ _ _ s d => subtract_func s d)

/-- color_blend.cpp:353-369 `divide` -/
noncomputable def divide (us ud : Bool) : Ptr → Ptr → Prog Ptr := Blend.operator us ud true (fun _ _ _ s d => divide_func s d)

/-- color_blend.cpp:371-387 `plus_lighter` -/
noncomputable def plus_lighter (us ud : Bool) : Ptr → Ptr → Prog Ptr := Blend.operator us ud true (fun _ _ _ s d => plus_lighter_func s d)

/-- color_blend.cpp:389-405 `plus_darker` -/
noncomputable def plus_darker (us ud : Bool) : Ptr → Ptr → Prog Ptr := Blend.operator us ud true (fun _ _ _ s d => plus_darker_func s d)

/-- color_blend.cpp:407-423 `exclusion` -/
noncomputable def exclusion (us ud : Bool) : Ptr → Ptr → Prog Ptr := Blend.operator us ud true (fun _ _ _ s d => exclusion_func s d)

/-- color_blend.cpp:425-441 `custom_componentwise_blend`; `f` is the function passed by the caller, without side effects. -/
noncomputable def custom_componentwise_blend (f : Fl → Fl → Fl) (us ud : Bool) : Ptr → Ptr → Prog Ptr := Blend.operator us ud true (fun _ _ _ s d => f s d)

/-- color_blend.cpp:443-449 `hue`; there are no checks and the two flags are ignored. -/
noncomputable def hue (_us _ud : Bool) (source destination : Ptr) : Prog Ptr := do
  let s ← load (← Converter.to_hcy source)
  let d ← load (← Converter.to_hcy destination)
  let r ← lift (do Color.construct .hcy [← s.getComponent 0, ← d.getComponent 1, ← d.getComponent 2] s.alpha s.space)
  let r ← alloc r
  let c ← load source
  Converter.convertTo r c.ctype

/-- color_blend.cpp:451-457 `saturation`; there are no checks and the two flags are ignored. -/
noncomputable def saturation (_us _ud : Bool) (source destination : Ptr) : Prog Ptr := do
  let s ← load (← Converter.to_hcy source)
  let d ← load (← Converter.to_hcy destination)
  let r ← lift (do Color.construct .hcy [← d.getComponent 0, ← s.getComponent 1, ← d.getComponent 2] s.alpha s.space)
  let r ← alloc r
  let c ← load source
  Converter.convertTo r c.ctype

/-- color_blend.cpp:459-465 `color`; there are no checks and the two flags are ignored. -/
noncomputable def color (_us _ud : Bool) (source destination : Ptr) : Prog Ptr := do
  let s ← load (← Converter.to_hcy source)
  let d ← load (← Converter.to_hcy destination)
  let r ← lift (do Color.construct .hcy [← s.getComponent 0, ← s.getComponent 1, ← d.getComponent 2] s.alpha s.space)
  let r ← alloc r
  let c ← load source
  Converter.convertTo r c.ctype

/-- color_blend.cpp:467-473 `luminosity`; there are no checks and the two flags are ignored. -/
noncomputable def luminosity (_us _ud : Bool) (source destination : Ptr) : Prog Ptr := do
  let s ← load (← Converter.to_hcy source)
  let d ← load (← Converter.to_hcy destination)
  let r ← lift (do Color.construct .hcy [← d.getComponent 0, ← d.getComponent 1, ← s.getComponent 2] s.alpha s.space)
  let r ← alloc r
  let c ← load source
  Converter.convertTo r c.ctype

end

end ColorBlend

import Verif.Heap

/-!
# Elementary conversions (ColorMagic/manipulation/color_converter.cpp)

The conversion formulas as functions from a colour value (and, where the code looks at the colour space, the `World`) to the value of the new
colour.  `double` intermediates (`M_PI`, `fmod`) are rounded like floats.  `std::fmin`, `std::fmax`, `fmod` resolve to the `float` overloads.
-/

open Outcome Fl

namespace Leaf
variable [FloatModel]

/-- color_converter.cpp:1450-1453 `clamp_float` -/
noncomputable def clampFloat (x mn mx : Fl) : Fl := fmin (fmax x mn) mx

/-- color_converter.cpp:1455-1460 `transform_range` -/
noncomputable def transformRange (v oldMin oldMax newMin newMax : Fl) : Fl :=
  ((v - oldMin) * (newMax - newMin)) / (oldMax - oldMin) + newMin

/-- color_converter.cpp:1444-1448 `round_float_to_n_decimals`.  A value that does not fit an `int` is undefined behaviour.  (No caller in the library.) -/
noncomputable def roundDecimals (x n : Fl) : Outcome Fl :=
  let factor := powf 10 n
  match x * factor + fin 0.5 with
  | .fin r => if -(2 : ℤ) ^ 31 ≤ truncR r ∧ truncR r < 2 ^ 31 then ok (rnd (truncR r) / factor) else ub
  | _ => ub

/-- color_converter.cpp:1356-1370 `hue_from_rgb_helper` (the parameter `min` is unused) -/
noncomputable def hueFromRgb (r g b mx delta : Fl) : Fl :=
  if feq mx r then 60 * fmod ((g - b) / delta) 6
  else if feq mx g then 60 * ((b - r) / delta + 2)
  else 60 * ((r - g) / delta + 4)

/-- color_converter.cpp:1372-1376 `hsv_to_rgb_helper` -/
noncomputable def hsvToRgb (h s v n : Fl) : Fl :=
  let k := fmod (n + h / 60) 6
  v - v * s * fmax (fmin k (fmin (4 - k) 1)) 0

/-- color_converter.cpp:1401-1407 `hsl_to_rgb_helper` -/
noncomputable def hslToRgb (h s l n : Fl) : Fl :=
  let k := fmod (n + h / 30) 12
  let a := s * fmin l (1 - l)
  l - a * fmax (fmin (k - 3) (fmin (9 - k) 1)) (-1)

/-- color_converter.cpp:1409-1412 `xyz_to_lab_helper` -/
noncomputable def xyzToLab (x : Fl) : Fl :=
  if 216 / 24389 < x then powf x (1 / 3) else (24389 / 27 * x + 16) / 116

/-- color_converter.cpp:1414-1442 `lab_to_xyz_helper` with `out_y_component = true` -/
noncomputable def labToY (x : Fl) : Fl :=
  let epsilon := 216 / 24389
  let k := 24389 / 27
  if epsilon * k < x then powf ((x + 16) / 116) 3 else x / k

/-- color_converter.cpp:1414-1442 `lab_to_xyz_helper` with `out_y_component = false` -/
noncomputable def labToXZ (x : Fl) : Fl :=
  let epsilon := 216 / 24389
  let k := 24389 / 27
  let component := powf x 3
  if epsilon < component then component else (116 * x - 16) / k

/-- color_converter.cpp:41-44 -/
noncomputable def rgb_true_to_rgb_deep (c : Color) : Outcome Color := do
  let r ← c.getComponent 0
  let g ← c.getComponent 1
  let b ← c.getComponent 2
  Color.construct .rgbDeep [r / 255, g / 255, b / 255] (c.alpha / 255) c.space

/-- color_converter.cpp:46-50 -/
noncomputable def rgb_true_to_grey_true (c : Color) : Outcome Color := do
  let r ← c.getComponent 0
  let g ← c.getComponent 1
  let b ← c.getComponent 2
  Color.construct .greyTrue [(r + g + b) / 3] c.alpha c.space

/-- color_converter.cpp:52-56, after the call of `rgb_true_to_grey_true`: a copy of the grey colour is read; `sp` is the space of the original. -/
noncomputable def grey_copy_to_deep (sp : Option Nat) (g : Color) : Outcome Color := do
  let g := g.copy
  let v ← g.getComponent 0
  Color.construct .greyDeep [v / 255] (g.alpha / 255) sp

/-- color_converter.cpp:113-116 -/
noncomputable def rgb_deep_to_rgb_true (c : Color) : Outcome Color := do
  let r ← c.getComponent 0
  let g ← c.getComponent 1
  let b ← c.getComponent 2
  Color.construct .rgbTrue [round (r * 255), round (g * 255), round (b * 255)] (round (c.alpha * 255)) c.space

/-- color_converter.cpp:123-127 -/
noncomputable def rgb_deep_to_grey_deep (c : Color) : Outcome Color := do
  let r ← c.getComponent 0
  let g ← c.getComponent 1
  let b ← c.getComponent 2
  Color.construct .greyDeep [(r + g + b) / 3] c.alpha c.space

/-- color_converter.cpp:129-136 -/
noncomputable def rgb_deep_to_cmyk (c : Color) : Outcome Color := do
  let r ← c.getComponent 0
  let g ← c.getComponent 1
  let b ← c.getComponent 2
  let k := 1 - fmax (fmax r g) b
  Color.construct .cmyk [(1 - r - k) / (1 - k), (1 - g - k) / (1 - k), (1 - b - k) / (1 - k), k] c.alpha c.space

/-- color_converter.cpp:138-154 -/
noncomputable def rgb_deep_to_hsi (c : Color) : Outcome Color := do
  let r ← c.getComponent 0
  let g ← c.getComponent 1
  let b ← c.getComponent 2
  let mn := fmin (fmin r g) b
  let mx := fmax (fmax r g) b
  if feq mx mn then Color.construct .hsi [0, 0, mn] c.alpha c.space
  else
    let i := (r + g + b) / 3
    Color.construct .hsi [hueFromRgb r g b mx (mx - mn), 1 - mn / i, i] c.alpha c.space

/-- color_converter.cpp:156-172 -/
noncomputable def rgb_deep_to_hsv (c : Color) : Outcome Color := do
  let r ← c.getComponent 0
  let g ← c.getComponent 1
  let b ← c.getComponent 2
  let mn := fmin (fmin r g) b
  let mx := fmax (fmax r g) b
  if feq mx mn then Color.construct .hsv [0, 0, mn] c.alpha c.space
  else Color.construct .hsv [hueFromRgb r g b mx (mx - mn), (mx - mn) / mx, mx] c.alpha c.space

/-- color_converter.cpp:174-190 -/
noncomputable def rgb_deep_to_hsl (c : Color) : Outcome Color := do
  let r ← c.getComponent 0
  let g ← c.getComponent 1
  let b ← c.getComponent 2
  let mn := fmin (fmin r g) b
  let mx := fmax (fmax r g) b
  if feq mx mn then Color.construct .hsl [0, 0, mn] c.alpha c.space
  else
    let l := fin 0.5 * (mx + mn)
    let s := if feq l 0 ∨ feq l 1 then 0 else (mx - mn) / (1 - Fl.abs (2 * l - 1))
    Color.construct .hsl [hueFromRgb r g b mx (mx - mn), s, l] c.alpha c.space

/-- color_converter.cpp:192-212 -/
noncomputable def rgb_deep_to_hcy (c : Color) : Outcome Color := do
  let r ← c.getComponent 0
  let g ← c.getComponent 1
  let b ← c.getComponent 2
  let mn := fmin (fmin r g) b
  let mx := fmax (fmax r g) b
  if feq mx mn then Color.construct .hcy [0, 0, mn] c.alpha c.space
  else
    let luma := lit 0.2126 * r + lit 0.7152 * g + lit 0.0722 * b
    Color.construct .hcy [hueFromRgb r g b mx (mx - mn), mx - mn, luma] c.alpha c.space

/-- color_base.h:233-239 `do_inverse_gamma_correction` on a colour in the world `w` -/
noncomputable def inverseGamma (w : World) (c : Color) : Outcome Color := do
  let s ← w.space c.space
  let g ← w.gamma s.gamma
  ok (c.applyGamma (g.inverse w.parts))

/-- color_base.h:221-227 `do_gamma_correction` on a colour in the world `w` -/
noncomputable def forwardGamma (w : World) (c : Color) : Outcome Color := do
  let s ← w.space c.space
  let g ← w.gamma s.gamma
  ok (c.applyGamma (g.correct w.parts))

/-- color_converter.cpp:214-220, after the inverse gamma correction has been applied to `c` -/
noncomputable def linear_to_xyz (w : World) (c : Color) : Outcome Color := do
  let s ← w.space c.space
  let v ← s.transform.mulVec c.comps
  let x ← Mat.vget v 0
  let y ← Mat.vget v 1
  let z ← Mat.vget v 2
  Color.construct .xyz [x, y, z] c.alpha c.space

/-- color_converter.cpp:247-250 -/
noncomputable def grey_true_to_rgb_true (c : Color) : Outcome Color := do
  let v ← c.getComponent 0
  Color.constructGrey .rgbTrue v c.alpha c.space

/-- color_converter.cpp:252-255 -/
noncomputable def grey_true_to_rgb_deep (c : Color) : Outcome Color := do
  let v ← c.getComponent 0
  Color.constructGrey .rgbDeep (v / 255) (c.alpha / 255) c.space

/-- color_converter.cpp:257-260 -/
noncomputable def grey_true_to_grey_deep (c : Color) : Outcome Color := do
  let v ← c.getComponent 0
  Color.construct .greyDeep [v / 255] (c.alpha / 255) c.space

/-- color_converter.cpp:317-320 -/
noncomputable def grey_deep_to_rgb_true (c : Color) : Outcome Color := do
  let v ← c.getComponent 0
  Color.constructGrey .rgbTrue (round (v * 255)) (round (c.alpha * 255)) c.space

/-- color_converter.cpp:322-325 -/
noncomputable def grey_deep_to_rgb_deep (c : Color) : Outcome Color := do
  let v ← c.getComponent 0
  Color.constructGrey .rgbDeep v c.alpha c.space

/-- color_converter.cpp:327-330 -/
noncomputable def grey_deep_to_grey_true (c : Color) : Outcome Color := do
  let v ← c.getComponent 0
  Color.construct .greyTrue [round (v * 255)] (round (c.alpha * 255)) c.space

/-- color_converter.cpp:392-398 -/
noncomputable def cmyk_to_rgb_deep (c : Color) : Outcome Color := do
  let x ← c.getComponent 0
  let m ← c.getComponent 1
  let y ← c.getComponent 2
  let k ← c.getComponent 3
  Color.construct .rgbDeep [(1 - x) * (1 - k), (1 - m) * (1 - k), (1 - y) * (1 - k)] c.alpha c.space

/-- color_converter.cpp:473-484: the six sectors of the hue circle -/
noncomputable def sector (h chroma x : Fl) : List Fl :=
  if 0 ≤ h ∧ h ≤ 1 then [chroma, x, 0]
  else if 1 < h ∧ h ≤ 2 then [x, chroma, 0]
  else if 2 < h ∧ h ≤ 3 then [0, chroma, x]
  else if 3 < h ∧ h ≤ 4 then [0, x, chroma]
  else if 4 < h ∧ h ≤ 5 then [x, 0, chroma]
  else if 5 < h ∧ h ≤ 6 then [chroma, 0, x]
  else [0, 0, 0]

/-- color_converter.cpp:465-487 -/
noncomputable def hsi_to_rgb_deep (c : Color) : Outcome Color := do
  let h ← c.getComponent 0
  let s ← c.getComponent 1
  let i ← c.getComponent 2
  if feq s 0 then Color.constructGrey .rgbDeep i c.alpha c.space
  else
    let ht := h / 60
    let z := 1 - Fl.abs (fmod ht 2 - 1)
    let chroma := (3 * i * s) / (1 + z)
    let x := chroma * z
    Color.construct .rgbDeep (sector ht chroma x) c.alpha c.space

/-- color_converter.cpp:554-578 -/
noncomputable def hsv_to_rgb_deep (c : Color) : Outcome Color := do
  let h ← c.getComponent 0
  let s ← c.getComponent 1
  let v ← c.getComponent 2
  Color.construct .rgbDeep [hsvToRgb h s v 5, hsvToRgb h s v 3, hsvToRgb h s v 1] c.alpha c.space

/-- color_converter.cpp:601-608 -/
noncomputable def hsv_to_hsl (c : Color) : Outcome Color := do
  let h ← c.getComponent 0
  let sat ← c.getComponent 1
  let v ← c.getComponent 2
  let l := (2 - sat) * v
  let s := sat * v / (if l ≤ 1 then l else 2 - l)
  Color.construct .hsl [h, s, l / 2] c.alpha c.space

/-- color_converter.cpp:650-680 -/
noncomputable def hsl_to_rgb_deep (c : Color) : Outcome Color := do
  let h ← c.getComponent 0
  let s ← c.getComponent 1
  let l ← c.getComponent 2
  if feq l 0 then Color.constructGrey .rgbDeep 0 0 c.space
  else Color.construct .rgbDeep [hslToRgb h s l 0, hslToRgb h s l 8, hslToRgb h s l 4] c.alpha c.space

/-- color_converter.cpp:702-709.  The condition of line 705 is `(saturation * (l_temp <= 1)) != 0`: the multiplication binds tighter than `?:`. -/
noncomputable def hsl_to_hsv (c : Color) : Outcome Color := do
  let h ← c.getComponent 0
  let sat ← c.getComponent 1
  let l ← c.getComponent 2
  let lt := l * 2
  let m := if ¬ feq (sat * (if lt ≤ 1 then 1 else 0)) 0 then lt else 2 - lt
  Color.construct .hsv [h, (2 * m) / (lt + m), (lt + m) / 2] c.alpha c.space

/-- color_converter.cpp:751-771.  `tmp_chroma` is computed and never used. -/
noncomputable def hcy_to_rgb_deep (c : Color) : Outcome Color := do
  let h ← c.getComponent 0
  let ch ← c.getComponent 1
  let y ← c.getComponent 2
  let u := h / 360
  let r := clampFloat (Fl.abs (u * 6 - 3) - 1) 0 1
  let g := clampFloat (2 - Fl.abs (u * 6 - 2)) 0 1
  let b := clampFloat (2 - Fl.abs (u * 6 - 4)) 0 1
  let Y := r * lit 0.2126 + g * lit 0.7152 + b * lit 0.0722
  Color.construct .rgbDeep [(r - Y) * ch + y, (g - Y) * ch + y, (b - Y) * ch + y] c.alpha c.space

/-- color_converter.cpp:838-848 -/
noncomputable def xyz_to_rgb_deep (w : World) (c : Color) : Outcome Color := do
  let s ← w.space c.space
  let v ← s.inverse.mulVec c.comps
  let r ← Mat.vget v 0
  let g ← Mat.vget v 1
  let b ← Mat.vget v 2
  let d ← Color.construct .rgbDeep [r, g, b] c.alpha c.space
  let d ← d.setChannel 0 (clampFloat (← d.getComponent 0) 0 1)
  let d ← d.setChannel 1 (clampFloat (← d.getComponent 1) 0 1)
  let d ← d.setChannel 2 (clampFloat (← d.getComponent 2) 0 1)
  forwardGamma w d

/-- color_converter.cpp:885-897 -/
noncomputable def xyz_to_xyy (w : World) (c : Color) : Outcome Color := do
  let x ← c.getComponent 0
  let y ← c.getComponent 1
  let z ← c.getComponent 2
  if feq x 0 ∧ feq y 0 ∧ feq z 0 then do
    let s ← w.space c.space
    let wp ← w.white s.white
    Color.construct .xyy [wp.chrom.x, wp.chrom.y, y] c.alpha c.space
  else Color.construct .xyy [x / (x + y + z), y / (x + y + z), y] c.alpha c.space

/-- color_converter.cpp:899-920.  Line 901 divides `x()` where the standard says `y()`; line 910 has 4 where the standard says 9. -/
noncomputable def xyz_to_cieluv (w : World) (c : Color) : Outcome Color := do
  let x ← c.getComponent 0
  let y ← c.getComponent 1
  let z ← c.getComponent 2
  let s ← w.space c.space
  let wp ← w.white s.white
  let t := wp.tri
  let yTemp := x / t.y
  let uTemp := 4 * x / (x + 15 * y + 3 * z)
  let vTemp := 9 * y / (x + 15 * y + 3 * z)
  let uW := 4 * t.x / (t.x + 15 * t.y + 3 * t.z)
  let vW := 4 * t.y / (t.x + 15 * t.y + 3 * t.z)
  let L := if lit 0.008856 < yTemp then 116 * powf yTemp (1 / 3) - 16 else lit 903.3 * yTemp
  Color.construct .cieluv [L, 13 * L * (uTemp - uW), 13 * L * (vTemp - vW)] c.alpha c.space

/-- color_converter.cpp:922-935 -/
noncomputable def xyz_to_lab (w : World) (c : Color) : Outcome Color := do
  let x ← c.getComponent 0
  let y ← c.getComponent 1
  let z ← c.getComponent 2
  let s ← w.space c.space
  let wp ← w.white s.white
  let t := wp.tri
  let fx := xyzToLab (x / t.x)
  let fy := xyzToLab (y / t.y)
  let fz := xyzToLab (z / t.z)
  let d ← Color.construct .lab [116 * fy - 16, 500 * (fx - fy), 200 * (fy - fz)] 0 c.space
  ok (d.setAlpha c.alpha)

/-- color_converter.cpp:992-1003 -/
noncomputable def xyy_to_xyz (c : Color) : Outcome Color := do
  let x ← c.getComponent 0
  let y ← c.getComponent 1
  let Y ← c.getComponent 2
  if feq y 0 then Color.construct .xyz [0, 0, 0] c.alpha c.space
  else Color.construct .xyz [x * Y / y, Y, (1 - x - y) * Y / y] c.alpha c.space

/-- color_converter.cpp:1070-1091.  `-1.f / 3.f` is a negated literal divided by 3. -/
noncomputable def cieluv_to_xyz (w : World) (c : Color) : Outcome Color := do
  let L ← c.getComponent 0
  let u ← c.getComponent 1
  let v ← c.getComponent 2
  let s ← w.space c.space
  let wp ← w.white s.white
  let t := wp.tri
  let uTemp := 4 * t.x / (t.x + 15 * t.y + 3 * t.z)
  let vTemp := 9 * t.y / (t.x + 15 * t.y + 3 * t.z)
  let Y := if lit 903.3 * lit 0.008856 < L then powf ((L + 16) / 116) 3 else L / lit 903.3
  let a := 1 / 3 * (52 * L / (u + 13 * L * uTemp) - 1)
  let b := (-5) * Y
  let cc := (-1) / 3
  let d := Y * (39 * L / (v + 13 * L * vTemp) - 5)
  let X := (d - b) / (a - cc)
  Color.construct .xyz [X, Y, X * a + b] c.alpha c.space

/-- color_converter.cpp:1108-1118 and 1187-1197: the common part of `cieluv_to_lch_uv` and `lab_to_lch_ab`.  The hue is `atan2f` in radians. -/
noncomputable def to_lch (t : ColorType) (c : Color) : Outcome Color := do
  let l ← c.getComponent 0
  let a ← c.getComponent 1
  let b ← c.getComponent 2
  let chroma := Fl.sqrt (powf a 2 + powf b 2)
  let chroma := transformRange chroma c.minv c.maxv 0 100
  let hue := atan2f b a
  let hue := if hue < 0 then hue + 360 else hue
  let d ← Color.construct t [l, chroma, hue] 0 c.space
  ok (d.setAlpha c.alpha)

/-- color_converter.cpp:1108-1118 -/
noncomputable def cieluv_to_lch_uv (c : Color) : Outcome Color := to_lch .lchUv c

/-- color_converter.cpp:1187-1197 -/
noncomputable def lab_to_lch_ab (c : Color) : Outcome Color := to_lch .lchAb c

/-- color_converter.cpp:1165-1175 -/
noncomputable def lab_to_xyz (w : World) (c : Color) : Outcome Color := do
  let l ← c.getComponent 0
  let a ← c.getComponent 1
  let b ← c.getComponent 2
  let fy := (l + 16) / 116
  let yt := labToY l
  let xt := labToXZ (a / 500 + fy)
  let zt := labToXZ (fy - b / 200)
  let s ← w.space c.space
  let wp ← w.white s.white
  let t := wp.tri
  let d ← Color.construct .xyz [xt * t.x, yt * t.y, zt * t.z] 0 c.space
  ok (d.setAlpha c.alpha)

/-- color_converter.cpp:1264-1273 and 1335-1344: the common part of `lch_ab_to_lab` and `lch_uv_to_cieluv`. -/
noncomputable def from_lch (t : ColorType) (c : Color) : Outcome Color := do
  let l ← c.getComponent 0
  let ch ← c.getComponent 1
  let h ← c.getComponent 2
  let rad := h * lit Real.pi / 180
  let d ← Color.construct t [l, ch * cosf rad, ch * sinf rad] 0 c.space
  ok (d.setAlpha c.alpha)

/-- color_converter.cpp:1264-1273 -/
noncomputable def lch_ab_to_lab (c : Color) : Outcome Color := from_lch .lab c

/-- color_converter.cpp:1335-1344 -/
noncomputable def lch_uv_to_cieluv (c : Color) : Outcome Color := from_lch .cieluv c

end Leaf

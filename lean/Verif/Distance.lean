import Verif.Converter

/-!
# Colour distances (ColorMagic/manipulation/color_distance.cpp)

`get_component_vector()` hands out the components; a missing component of the second colour is undefined behaviour.  `abs` and `atan2` with `float`
arguments are taken to be the `float` overloads.  `int` arithmetic is exact (the values stay far below the limits); converting
a `float` that does not fit to `int` is undefined.
-/

open Outcome Prog Fl

namespace Distance
variable [FloatModel]

/-- color_distance.cpp:214-217 `to_rad` -/
noncomputable def toRad (degree : Fl) : Fl := degree * (lit Real.pi / 180)

/-- color_distance.cpp:219-222 `to_deg` -/
noncomputable def toDeg (radians : Fl) : Fl := radians * (180 / lit Real.pi)

/-- color_distance.cpp:17-20, 29-32 and 74-77: the sum of the squared differences, from component `i` on, `n` components. -/
noncomputable def squares (a b : Color) : Nat → Nat → Fl → Outcome Fl
  | 0, _, sum => ok sum
  | n + 1, i, sum =>
    match a.comps[i]?, b.comps[i]? with
    | some x, some y => squares a b n (i + 1) (sum + powf (x - y) 2)
    | _, _ => ub

/-- The common frame of all distances, e.g. color_distance.cpp:66-71: the same pointer means distance 0; both colours are converted; the same pointer
after conversion means distance 0.  The second test compares pointers, too. -/
noncomputable def between (conv : Ptr → Prog Ptr) (f : Color → Color → Outcome Fl) (p1 p2 : Ptr) : Prog Fl :=
  if p1 = p2 then pure 0
  else do
    let q1 ← conv p1
    let q2 ← conv p2
    if q1 = q2 then pure 0
    else do
      let a ← load q1
      let b ← load q2
      lift (f a b)

/-- color_distance.cpp:5-36 -/
noncomputable def euclidean_distance_squared (p1 p2 : Ptr) (space : ColorType) : Prog Fl :=
  if p1 = p2 then pure 0
  else if space = .cieluv then between Converter.to_cieluv (fun a b => squares a b a.comps.length 0 0) p1 p2
  else between Converter.to_rgb_deep (fun a b => squares a b a.comps.length 0 0) p1 p2

/-- color_distance.cpp:38-43.  The requested space is not handed on: line 42 uses the default argument. -/
noncomputable def euclidean_distance (p1 p2 : Ptr) (_space : ColorType) : Prog Fl :=
  if p1 = p2 then pure 0
  else do
    let d ← euclidean_distance_squared p1 p2 .rgbDeep
    pure (Fl.sqrt d)

/-- color_distance.cpp:55-60 -/
noncomputable def weighted (a b : Color) : Outcome Fl := do
  let r1 ← a.getComponent 0
  let g1 ← a.getComponent 1
  let b1 ← a.getComponent 2
  let r2 ← b.getComponent 0
  let g2 ← b.getComponent 1
  let b2 ← b.getComponent 2
  let avg := ((r1 + r2) / 2) * 255
  let dr := (r1 - r2) * 255
  let dg := (g1 - g2) * 255
  let db := (b1 - b2) * 255
  ok (Fl.sqrt ((2 + avg / 256) * powf dr 2 + 4 * powf dg 2 + (2 + (255 - avg) / 256) * powf db 2) / 255)

/-- color_distance.cpp:45-61 -/
noncomputable def euclidean_distance_weighted (p1 p2 : Ptr) : Prog Fl := between Converter.to_rgb_deep weighted p1 p2

/-- color_distance.cpp:73-79 -/
noncomputable def cie76 (a b : Color) : Outcome Fl := do
  let s ← squares a b a.comps.length 0 0
  ok (Fl.sqrt s)

/-- color_distance.cpp:63-80 -/
noncomputable def cielab_delta_e_cie76 (p1 p2 : Ptr) : Prog Fl := between Converter.to_lab cie76 p1 p2

/-- Chroma of a LAB colour, color_distance.cpp:93, 114 and 176. -/
noncomputable def chroma (x y : Fl) : Fl := Fl.sqrt (powf x 2 + powf y 2)

/-- color_distance.cpp:92-100 -/
noncomputable def cie94 (kL k1 k2 kC kH : Fl) (p q : Color) : Outcome Fl := do
  let l1 ← p.getComponent 0
  let a1 ← p.getComponent 1
  let b1 ← p.getComponent 2
  let l2 ← q.getComponent 0
  let a2 ← q.getComponent 1
  let b2 ← q.getComponent 2
  let dl := l1 - l2
  let c1 := chroma a1 b1
  let c2 := chroma a2 b2
  let dc := c1 - c2
  let dh := Fl.sqrt (powf (a1 - a2) 2 + powf (b1 - b2) 2 - powf dc 2)
  let sc := 1 + k1 * c1
  let sh := 1 + k2 * c1
  ok (Fl.sqrt (powf (dl / (kL * 1)) 2 + powf (dc / (kC * sc)) 2 + powf (dh / (kH * sh)) 2))

/-- color_distance.cpp:82-101 -/
noncomputable def cielab_delta_e_cie94 (kL k1 k2 kC kH : Fl) (p1 p2 : Ptr) : Prog Fl := between Converter.to_lab (cie94 kL k1 k2 kC kH) p1 p2

/-- The conversion `(int)x`. -/
noncomputable def toInt : Fl → Outcome Int
  | .fin r => if -(2 : ℤ) ^ 31 ≤ truncR r ∧ truncR r < 2 ^ 31 then ok (truncR r) else ub
  | _ => ub

/-- The conversion of an `int` to `float`. -/
noncomputable def ofInt (n : Int) : Fl := rnd n

/-- color_distance.cpp:125-126 and 127-128: the hue in whole degrees -/
noncomputable def hueInt (b a : Fl) : Outcome Int := do
  let n ← toInt (toDeg (atan2f b a))
  let h := n.tmod 360
  ok (if h < 0 then h + 360 else h)

/-- color_distance.cpp:130-138 -/
noncomputable def meanHue (h1 h2 : Int) : Fl :=
  if 180 < |h1 - h2| then (ofInt (h1 + h2) + 360) / 2 else ofInt (h1 + h2) / 2

/-- color_distance.cpp:140-152 -/
def deltaHue (h1 h2 : Int) : Int :=
  if |h2 - h1| ≤ 180 then h2 - h1
  else if 180 < |h2 - h1| ∧ h2 ≤ h1 then h2 - h1 + 360
  else h2 - h1 - 360

/-- color_distance.cpp:113-163 -/
noncomputable def cie00 (kL k1 k2 kC kH : Fl) (p q : Color) : Outcome Fl := do
  let l1 ← p.getComponent 0
  let a1 ← p.getComponent 1
  let b1 ← p.getComponent 2
  let l2 ← q.getComponent 0
  let a2 ← q.getComponent 1
  let b2 ← q.getComponent 2
  let avgL := (l1 + l2) / 2
  let c1 := chroma a1 b1
  let c2 := chroma a2 b2
  let avgC := (c1 + c2) / 2
  let g := Fl.sqrt (powf avgC 7 / (powf avgC 7 + powf 25 7))
  let ta1 := a1 + a1 / 2 * (1 - g)
  let ta2 := a2 + a2 / 2 * (1 - g)
  let h1 ← hueInt b1 ta1
  let h2 ← hueInt b2 ta2
  let H := meanHue h1 h2
  let dh := deltaHue h1 h2
  let dL := l2 - l1
  let dC := c2 - c1
  let dH := 2 * Fl.sqrt (c1 * c2) * sinf (toRad (ofInt dh / 2))
  let sC := 1 + k1 * avgC
  let sH := 1 + k2 * avgC * (1 - lit 0.17 * cosf (toRad (H - 30)) + lit 0.24 * cosf (toRad (2 * H)) + lit 0.32 * cosf (toRad (3 * H + 6)) - lit 0.2 * cosf (toRad (4 * H - 63)))
  let sL := 1 + (k2 * powf (avgL - 50) 2) / Fl.sqrt (20 + powf (avgL - 50) 2)
  let rt := (-2) * g * sinf (toRad (60 * expf (powf (-(H - 275) / 25) 2)))
  ok (Fl.sqrt (powf (dL / (kL * sL)) 2 + powf (dC / (kC * sC)) 2 + powf (dH / (kH * sH)) 2 + rt * (dC / (kC * sC)) * (dH / (kH * sH))))

/-- color_distance.cpp:103-164.  Lines 121-123 compute chroma values that are never used. -/
noncomputable def cielab_delta_e_cie00 (kL k1 k2 kC kH : Fl) (p1 p2 : Ptr) : Prog Fl := between Converter.to_lab (cie00 kL k1 k2 kC kH) p1 p2

/-- color_distance.cpp:187-196 -/
noncomputable def cmcT (H : Fl) : Fl :=
  if 164 < H ∧ H ≤ 345 then lit 0.56 + Fl.abs (lit 0.2 * cosf (toRad (H + 168))) else lit 0.36 + Fl.abs (lit 0.4 * cosf (toRad (H + 35)))

/-- color_distance.cpp:176-211 -/
noncomputable def cmc (lightness chr : Fl) (p q : Color) : Outcome Fl := do
  let l1 ← p.getComponent 0
  let a1 ← p.getComponent 1
  let b1 ← p.getComponent 2
  let l2 ← q.getComponent 0
  let a2 ← q.getComponent 1
  let b2 ← q.getComponent 2
  let c1 := chroma a1 b1
  let c2 := chroma a2 b2
  let dC := c1 - c2
  let dH := Fl.sqrt (powf (a1 - a2) 2 + powf (b1 - b2) 2 - powf dC 2)
  let dL := l1 - l2
  let H := toDeg (atan2f b1 a1)
  let H := if H < 0 then H + 360 else H
  let F := Fl.sqrt (powf c1 4 / (powf c1 4 + 1900))
  let T := cmcT H
  let sL := if l1 < 16 then lit 0.511 else (lit 0.040975 * l1) / (1 + lit 0.01765 * l1)
  let sC := (lit 0.0638 * c1) / (1 + lit 0.0131 * c1) + lit 0.638
  let sH := sC * (F * T + 1 - F)
  ok (Fl.sqrt (powf (dL / (lightness * sL)) 2 + powf (dC / (chr * sC)) 2 + powf (dH / sH) 2))

/-- color_distance.cpp:166-212 -/
noncomputable def cmc_delta_e_lc84 (lightness chr : Fl) (p1 p2 : Ptr) : Prog Fl := between Converter.to_lab (cmc lightness chr) p1 p2

end Distance

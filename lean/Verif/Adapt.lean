import Verif.Converter

/-!
# Chromatic adaptation

Model of `ColorMagic/manipulation/chromatic_adaptation.cpp` and `.h`.

All eleven adaptation functions share their beginning (comparison of white point pointers, conversion to XYZ) and their end (a copy of the colour space
definition that gets the target white point, an XYZ object, the conversion back); they differ in the computation in between, which reads the XYZ
components, the components of the colour itself and both white points.  `adapt` is the common part.

Simplification: the address of the colour space definition created with `new` is a parameter (as for the presets).  `-0.f` is `0`, there are no signed zeros in the
model.
-/

open Outcome Prog Fl

/-- The seven pairs of matrices. -/
inductive AdaptMatrix where
  | von_kries
  | bradford
  | xyz_scale
  | sharp
  | cmccat97
  | cmccat2000
  | cat02
  deriving DecidableEq

namespace AdaptMatrix

/-- chromatic_adaptation.cpp:4-93: `m_von_kries`, ..., `m_cat02` -/
noncomputable def values : AdaptMatrix → List ℝ
  | von_kries => [0.40024, 0.7076, -0.08081, -0.2263, 1.16532, 0.0457, 0, 0, 0.91822]
  | bradford => [0.8951, 0.2664, -0.1614, -0.7502, 1.7135, 0.0367, 0.0389, -0.0685, 1.0296]
  | xyz_scale => [1, 0, 0, 0, 1, 0, 0, 0, 1]
  | sharp => [1.2694, -0.0988, -0.1706, -0.8364, 1.8006, 0.0357, 0.0297, -0.0315, 1.0018]
  | cmccat97 => [0.8951, 0.2664, -0.1614, -0.7502, 1.7135, 0.0367, 0.0389, -0.0685, 1.0296]
  | cmccat2000 => [0.7982, 0.3389, -0.1371, -0.5918, 1.5512, 0.0406, 0.0008, 0.0239, 0.9753]
  | cat02 => [0.7328, 0.4296, -0.1624, -0.7036, 1.6975, 0.0061, 0.003, 0.0136, 0.9834]

/-- chromatic_adaptation.cpp:11-100: `m_inverted_von_kries`, ..., `m_inverted_cat02` -/
noncomputable def inverseValues : AdaptMatrix → List ℝ
  | von_kries => [1.8599364, -1.1293816, 0.2198974, 0.3611914, 0.6388125, -0.0000064, 0, 0, 1.0890636]
  | bradford => [0.9869929, -0.1470543, 0.1599627, 0.4323053, 0.5183603, 0.0492912, -0.0085287, 0.0400428, 0.9684867]
  | xyz_scale => [1, 0, 0, 0, 1, 0, 0, 0, 1]
  | sharp => [0.81563, 0.04715, 0.13722, 0.37911, 0.57694, 0.044, -0.01226, 0.01674, 0.99552]
  | cmccat97 => [0.98699, -0.14705, 0.15996, 0.43231, 0.51836, 0.04929, -0.00853, 0.04004, 0.96849]
  | cmccat2000 => [1.07645, -0.23766, 0.16121, 0.41096, 0.55434, 0.03469, -0.01095, -0.01339, 1.02434]
  | cat02 => [1.09612, -0.27887, 0.18275, 0.45437, 0.47353, 0.0721, -0.00963, -0.0057, 1.01533]

variable [FloatModel]

/-- chromatic_adaptation.cpp:4-93: the matrix objects. -/
noncomputable def mat (m : AdaptMatrix) : Outcome (Mat Fl) := Mat.ofList 3 3 (m.values.map lit)
/-- chromatic_adaptation.cpp:11-100: the matrix objects. -/
noncomputable def inv (m : AdaptMatrix) : Outcome (Mat Fl) := Mat.ofList 3 3 (m.inverseValues.map lit)

end AdaptMatrix

namespace Adapt
variable [FloatModel]

/-- What the functions compute from the XYZ components, the components of the colour and the tristimulus values of both white points. -/
abbrev Core := List Fl → List Fl → V3 → V3 → Outcome (List Fl)

/-- `color->get_rgb_color_space()->get_white_point()` -/
noncomputable def whiteOf (w : World) (c : Color) : Outcome (Option Nat) := do
  let s ← w.space c.space
  ok s.white

/-- `new rgb_color_space_definition(*old)` at address `a` and `set_white_point(target)`, e.g. chromatic_adaptation.cpp:393-394. -/
noncomputable def newDefinition (a : Nat) (old : Option Nat) (target : Option Nat) : Prog Unit := fun h =>
  match h.world.space old with
  | .ub => (.ub, h)
  | .throw e => (.throw e, h)
  | ok s =>
    match s.copy with
    | .ub => (.ub, h)
    | .throw e => (.throw e, h)
    | ok d =>
      let r := d.setWhitePoint h.world.whites target
      (r.2, ⟨{ h.world with spaces := Function.update h.world.spaces a r.1 }, h.colors⟩)

/-- The part all functions share; e.g. chromatic_adaptation.cpp:104-109 with 364-399, or 114-120 with 149-156. -/
noncomputable def adapt (f : Core) (a : Nat) (p : Ptr) (target : Option Nat) : Prog Ptr := do
  let c ← load p
  let w ← world
  let wp ← lift (whiteOf w c)
  if wp = target then pure p
  else do
    let q ← Converter.to_xyz p
    let x ← load q
    let c ← load p
    let w ← world
    let wp ← lift (whiteOf w c)
    let src ← lift (w.white wp)
    let dst ← lift (w.white target)
    let v ← lift (f x.comps c.comps src.tri dst.tri)
    newDefinition a c.space target
    let v0 ← lift (Mat.vget v 0)
    let v1 ← lift (Mat.vget v 1)
    let v2 ← lift (Mat.vget v 2)
    let n ← lift (Color.construct .xyz [v0, v1, v2] x.alpha (some a))
    let n ← alloc n
    Converter.convertTo n c.ctype

/-- Three cells of a vector, read without a check. -/
noncomputable def three (v : List Fl) : Outcome (Fl × Fl × Fl) := do
  let a ← Mat.vget v 0
  let b ← Mat.vget v 1
  let c ← Mat.vget v 2
  ok (a, b, c)

/-- chromatic_adaptation.cpp:369-391: `do_adaption`. -/
noncomputable def simplified (m : AdaptMatrix) : Core := fun x _ src dst => do
  let mat ← m.mat
  let inv ← m.inv
  let s ← mat.mulVec [src.x, src.y, src.z]
  let d ← mat.mulVec [dst.x, dst.y, dst.z]
  let (s0, s1, s2) ← three s
  let (d0, d1, d2) ← three d
  let wp ← Mat.ofList 3 3 [d0 / s0, 0, 0, 0, d1 / s1, 0, 0, 0, d2 / s2]
  let t ← inv.mul wp
  let t ← t.mul mat
  t.mulVec x

/-- chromatic_adaptation.cpp:121-148: the computation of `bradford_adaptation`. -/
noncomputable def bradfordCore : Core := fun x own src dst => do
  let mat ← AdaptMatrix.bradford.mat
  let inv ← AdaptMatrix.bradford.inv
  let r ← mat.mulVec x
  let (r0, r1, r2) ← three r
  let y ← Mat.vget own 1
  let r0 := r0 / y
  let r1 := r1 / y
  let r2 := r2 / y
  let s ← mat.mulVec [src.x / src.y, src.y / src.y, src.z / src.y]
  let d ← mat.mulVec [dst.x / dst.y, dst.y / dst.y, dst.z / dst.y]
  let (s0, s1, s2) ← three s
  let (d0, d1, d2) ← three d
  let p := powf (s2 / d2) (lit 0.0834)
  let t0 := (d0 * (r0 / s0)) * y
  let t1 := (d1 * (r1 / s1)) * y
  let div := r2 / s2
  let t2 := (d2 * powf (abs div) p) * y
  let t2 := if div < 0 then t2 * (-1) else t2
  inv.mulVec [t0, t1, t2]

/-- The two comparisons that limit the degree of adaptation, e.g. chromatic_adaptation.cpp:229-230. -/
noncomputable def limitDegree (d : Fl) : Fl :=
  let d := if d < 0 then 0 else d
  if d > 1 then 1 else d

/-- chromatic_adaptation.cpp:228-230 -/
noncomputable def degree97 (f la : Fl) : Fl :=
  limitDegree (f - (f / (1 + 2 * powf la (lit 0.25) + powf la 2 / 300)))

/-- chromatic_adaptation.cpp:208-242: the computation of `cmccat97_adaptation`. -/
noncomputable def cmccat97Core (f la : Fl) : Core := fun x own src dst => do
  let mat ← AdaptMatrix.cmccat97.mat
  let inv ← AdaptMatrix.cmccat97.inv
  let r ← mat.mulVec x
  let (r0, r1, r2) ← three r
  let y ← Mat.vget own 1
  let r0 := r0 / y
  let r1 := r1 / y
  let r2 := r2 / y
  let s ← mat.mulVec [src.x / src.y, src.y / src.y, src.z / src.y]
  let t ← mat.mulVec [dst.x / dst.y, dst.y / dst.y, dst.z / dst.y]
  let (s0, s1, s2) ← three s
  let (t0, t1, t2) ← three t
  let d := degree97 f la
  let p := powf (s2 / t2) (lit 0.0834)
  let u0 := y * (r0 * (d * (t0 / s0) + 1 - d))
  let u1 := y * (r1 * (d * (t1 / s1) + 1 - d))
  let u2 := y * (powf (abs r2) p * (d * (t2 / powf s2 p) + 1 - d))
  let u2 := if r2 < 0 then u2 * (-1) else u2
  inv.mulVec [u0, u1, u2]

/-- chromatic_adaptation.cpp:286-288 -/
noncomputable def degree2000 (f la lr : Fl) : Fl :=
  limitDegree (f * (lit 0.08 * log10f (lit 0.5 * (la + lr)) + lit 0.76 - lit 0.45 * ((la - lr) / (la + lr))))

/-- chromatic_adaptation.cpp:269-298: the computation of `cmccat2000_adaptation`. -/
noncomputable def cmccat2000Core (f la lr : Fl) : Core := fun x _ src dst => do
  let mat ← AdaptMatrix.cmccat2000.mat
  let inv ← AdaptMatrix.cmccat2000.inv
  let r ← mat.mulVec x
  let s ← mat.mulVec [src.x, src.y, src.z]
  let t ← mat.mulVec [dst.x, dst.y, dst.z]
  let (r0, r1, r2) ← three r
  let (s0, s1, s2) ← three s
  let (t0, t1, t2) ← three t
  let d := degree2000 f la lr
  let k := d * (src.y / dst.y)
  inv.mulVec [(k * (t0 / s0) + 1 - d) * r0, (k * (t1 / s1) + 1 - d) * r1, (k * (t2 / s2) + 1 - d) * r2]

/-- chromatic_adaptation.cpp:343-345 -/
noncomputable def degree02 (f la : Fl) : Fl :=
  limitDegree (f * (1 - (1 / lit 3.6) * expf ((-la - 42) / 92)))

/-- chromatic_adaptation.cpp:326-355: the computation of `cat02_adaptation`.  `wp_y_factor` (line 347) is not used. -/
noncomputable def cat02Core (f la : Fl) : Core := fun x _ src dst => do
  let mat ← AdaptMatrix.cat02.mat
  let inv ← AdaptMatrix.cat02.inv
  let r ← mat.mulVec x
  let s ← mat.mulVec [src.x, src.y, src.z]
  let t ← mat.mulVec [dst.x, dst.y, dst.z]
  let (r0, r1, r2) ← three r
  let (s0, s1, s2) ← three s
  let (t0, t1, t2) ← three t
  let d := degree02 f la
  inv.mulVec [r0 * (d * (t0 / s0) + 1 - d), r1 * (d * (t1 / s1) + 1 - d), r2 * (d * (t2 / s2) + 1 - d)]

/-- chromatic_adaptation.cpp:102-110 -/
noncomputable def von_kries_adaptation := adapt (simplified .von_kries)
/-- chromatic_adaptation.cpp:112-157 -/
noncomputable def bradford_adaptation := adapt bradfordCore
/-- chromatic_adaptation.cpp:159-167 -/
noncomputable def bradford_adaptation_simplified := adapt (simplified .bradford)
/-- chromatic_adaptation.cpp:169-177 -/
noncomputable def xyz_scale_adaptation := adapt (simplified .xyz_scale)
/-- chromatic_adaptation.cpp:179-187 -/
noncomputable def sharp_adaptation := adapt (simplified .sharp)
/-- chromatic_adaptation.cpp:189-197 -/
noncomputable def cmccat97_adaptation_simplified := adapt (simplified .cmccat97)
/-- chromatic_adaptation.cpp:199-248 -/
noncomputable def cmccat97_adaptation (f la : Fl) := adapt (cmccat97Core f la)
/-- chromatic_adaptation.cpp:250-258 -/
noncomputable def cmccat2000_adaptation_simplified := adapt (simplified .cmccat2000)
/-- chromatic_adaptation.cpp:260-305 -/
noncomputable def cmccat2000_adaptation (f la lr : Fl) := adapt (cmccat2000Core f la lr)
/-- chromatic_adaptation.cpp:307-315 -/
noncomputable def cat02_adaptation_simplified := adapt (simplified .cat02)
/-- chromatic_adaptation.cpp:317-362 -/
noncomputable def cat02_adaptation (f la : Fl) := adapt (cat02Core f la)

/-- chromatic_adaptation.h:159-162 -/
noncomputable def calculate_adapting_luminance (luminance bg : Fl) : Fl := luminance * bg / 100

end Adapt

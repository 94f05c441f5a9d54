import Verif.Float
import Verif.Outcome

/-! # White points (ColorMagic/spaces/white_point.h) -/

/-- `std::array<float, 3>` -/
structure V3 where
  x : Fl
  y : Fl
  z : Fl

/-- white_point.h:12-216: chromaticity coordinates and tristimulus values. -/
structure WhitePoint where
  chrom : V3
  tri : V3

namespace WhitePoint
open Fl
variable [FloatModel]

/-- white_point.h:19-21 -/
noncomputable def zero : WhitePoint := ⟨⟨0, 0, 0⟩, ⟨0, 0, 0⟩⟩

/-- white_point.h:31-40 (and 47-48, which calls it) -/
noncomputable def make (tx ty tz cx cy : Fl) : WhitePoint := ⟨⟨cx, cy, 1 - cx - cy⟩, ⟨tx, ty, tz⟩⟩

/-- white_point.h:125-132 `tristimulus_to_chromaticity_coordinate` -/
noncomputable def toChrom (t : V3) : V3 := ⟨t.x / (t.x + t.y + t.z), t.y / (t.x + t.y + t.z), t.z / (t.x + t.y + t.z)⟩

/-- white_point.h:141-150 `chromaticity_coordinate_to_tristimulus` -/
noncomputable def toTri (c : V3) (Y : Fl) : V3 :=
  let factor := Y / c.y
  ⟨factor * c.x, factor * c.y, factor * c.z⟩

/-- white_point.h:55-62 -/
noncomputable def ofChrom (cx cy : Fl) : WhitePoint :=
  let c : V3 := ⟨cx, cy, 1 - cx - cy⟩
  ⟨c, toTri c 1⟩

/-- white_point.h:70-77 -/
noncomputable def ofTri (tx ty tz : Fl) : WhitePoint :=
  let t : V3 := ⟨tx, ty, tz⟩
  ⟨toChrom t, t⟩

/-- white_point.h:80-84 copy constructor -/
def copy (w : WhitePoint) : WhitePoint := ⟨w.chrom, w.tri⟩

/-- `==` of `std::array<float, 3>` -/
def eqV3 (a b : V3) : Prop := feq a.x b.x ∧ feq a.y b.y ∧ feq a.z b.z

/-- white_point.h:96-105 `operator==` -/
def eq (a b : WhitePoint) : Prop := eqV3 a.tri b.tri ∧ eqV3 a.chrom b.chrom

end WhitePoint

/-- white_point.h:222-470 `white_point_presets`: the member functions. -/
inductive WhitePreset where
  | D50_2Degree
  | D55_2Degree
  | D65_2Degree
  | D75_2Degree
  | A_2Degree
  | B_2Degree
  | C_2Degree
  | E_2Degree
  | F1_2Degree
  | F2_2Degree
  | F3_2Degree
  | F4_2Degree
  | F5_2Degree
  | F6_2Degree
  | F7_2Degree
  | F8_2Degree
  | F9_2Degree
  | F10_2Degree
  | F11_2Degree
  | F12_2Degree
  | D50_10Degree
  | D55_10Degree
  | D65_10Degree
  | D75_10Degree
  | A_10Degree
  | B_10Degree
  | C_10Degree
  | E_10Degree
  | F1_10Degree
  | F2_10Degree
  | F3_10Degree
  | F4_10Degree
  | F5_10Degree
  | F6_10Degree
  | F7_10Degree
  | F8_10Degree
  | F9_10Degree
  | F10_10Degree
  | F11_10Degree
  | F12_10Degree
  deriving DecidableEq

namespace WhitePreset

/-- white_point.h:228-468: the five literals of each preset (X, Y, Z, x, y). -/
noncomputable def literals : WhitePreset → ℝ × ℝ × ℝ × ℝ × ℝ
  | D50_2Degree => (0.9642, 1, 0.8251, 0.3456, 0.3585) -- line 228
  | D55_2Degree => (0.9568, 1, 0.9214, 0.3324, 0.3474) -- line 234
  | D65_2Degree => (0.9504, 1, 1.0888, 0.3127, 0.3290) -- line 240
  | D75_2Degree => (0.9497, 1, 1.2264, 0.2990, 0.3148) -- line 246
  | A_2Degree => (0.10985, 1, 0.3558, 0.4475, 0.4074) -- line 252
  | B_2Degree => (0.9909, 1, 0.8531, 0.3484, 0.3516) -- line 259
  | C_2Degree => (0.9807, 1, 1.1823, 0.3100, 0.3161) -- line 266
  | E_2Degree => (0.1, 1, 0.1, 0.3333, 0.3333) -- line 272
  | F1_2Degree => (0.9283, 1, 1.0366, 0.3130, 0.3372) -- line 278
  | F2_2Degree => (0.9918, 1, 0.6739, 0.3720, 0.3751) -- line 284
  | F3_2Degree => (0.10375, 1, 0.4986, 0.4090, 0.3943) -- line 290
  | F4_2Degree => (0.10914, 1, 0.3881, 0.4401, 0.4033) -- line 296
  | F5_2Degree => (0.9087, 1, 0.9872, 0.3137, 0.3453) -- line 302
  | F6_2Degree => (0.9730, 1, 0.6019, 0.3778, 0.3883) -- line 308
  | F7_2Degree => (0.9504, 1, 1.0875, 0.3128, 0.3291) -- line 314
  | F8_2Degree => (0.9641, 1, 0.8233, 0.3458, 0.3587) -- line 320
  | F9_2Degree => (0.10036, 1, 0.6786, 0.3741, 0.3728) -- line 326
  | F10_2Degree => (0.9617, 1, 0.8171, 0.3460, 0.3598) -- line 332
  | F11_2Degree => (0.10096, 1, 0.6437, 0.3805, 0.3768) -- line 338
  | F12_2Degree => (0.10804, 1, 0.3922, 0.4369, 0.4044) -- line 344
  | D50_10Degree => (0.9672, 1, 0.8142, 0.3477, 0.3595) -- line 352
  | D55_10Degree => (0.9579, 1, 0.9092, 0.3341, 0.3487) -- line 358
  | D65_10Degree => (0.9481, 1, 1.0730, 0.3138, 0.3310) -- line 364
  | D75_10Degree => (0.9441, 1, 1.2064, 0.2996, 0.3174) -- line 370
  | A_10Degree => (0.11114, 1, 0.3520, 0.4511, 0.4059) -- line 376
  | B_10Degree => (0.9917, 1, 0.84349, 0.3497, 0.3527) -- line 383
  | C_10Degree => (0.9728, 1, 1.1614, 0.3103, 0.3190) -- line 390
  | E_10Degree => (0.1, 1, 0.1, 0.3333, 0.3333) -- line 396
  | F1_10Degree => (0.9479, 1, 1.0319, 0.3181, 0.3355) -- line 402
  | F2_10Degree => (0.10328, 1, 0.6902, 0.3792, 0.3672) -- line 408
  | F3_10Degree => (0.10896, 1, 0.5196, 0.4175, 0.3832) -- line 414
  | F4_10Degree => (0.11496, 1, 0.4096, 0.4492, 0.3907) -- line 420
  | F5_10Degree => (0.9336, 1, 0.9863, 0.3197, 0.3424) -- line 426
  | F6_10Degree => (0.10214, 1, 0.6207, 0.3865, 0.3784) -- line 432
  | F7_10Degree => (0.9579, 1, 1.0768, 0.3156, 0.3295) -- line 438
  | F8_10Degree => (0.9711, 1, 0.8113, 0.3490, 0.3594) -- line 444
  | F9_10Degree => (0.10211, 1, 0.6782, 0.3782, 0.3704) -- line 450
  | F10_10Degree => (0.9900, 1, 0.8313, 0.3509, 0.3544) -- line 456
  | F11_10Degree => (0.10386, 1, 0.6562, 0.3854, 0.3710) -- line 462
  | F12_10Degree => (0.11142, 1, 0.4035, 0.4425, 0.3971) -- line 468

/-- white_point.h:228-468: the object a preset creates. -/
noncomputable def create [FloatModel] (p : WhitePreset) : WhitePoint :=
  let l := p.literals
  WhitePoint.make (Fl.lit l.1) (Fl.lit l.2.1) (Fl.lit l.2.2.1) (Fl.lit l.2.2.2.1) (Fl.lit l.2.2.2.2)

end WhitePreset

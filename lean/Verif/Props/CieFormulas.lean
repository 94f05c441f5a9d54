import Verif.Props.Formulas
import Verif.Props.CieTrips

/-!
# C110–C114: the conversions between RGB and the CIE spaces compute the published formulas

xyY, LAB, linear RGB, CIELUV and LCH, in exact arithmetic.
-/

open Outcome Fl Prog ObjectSpec ConvSpec BlendSpec FormulaSpec Formula Hue

namespace FormulaSpec

/-- `x` limited to the range from `lo` to `hi`. -/
noncomputable def limit (lo hi x : ℝ) : ℝ := max lo (min hi x)

/-- The inverse of the function `f` of CIE LAB, as published. -/
noncomputable def labG (t : ℝ) : ℝ := if 6 / 29 < t then t ^ 3 else 3 * (6 / 29) ^ 2 * (t - 4 / 29)

end FormulaSpec

namespace Formula

theorem clamp_limit (lo hi x : ℝ) : Color.clamp (fin x) (fin hi) (fin lo) = fin (limit lo hi x) := by
  rw [Color.clamp_fin, limit, min_comm, max_comm]

theorem limit_of {lo hi x : ℝ} (h0 : lo ≤ x) (h1 : x ≤ hi) : limit lo hi x = x := by rw [limit, min_eq_right h1, max_eq_right h0]

/-- `labG` undoes the `f` of CIE LAB. -/
theorem labG_labF {t : ℝ} (ht : 0 ≤ t) : labG (labF t) = t := by
  rcases labF_cases ht with ⟨h1, h2, -⟩ | ⟨-, h2, h3⟩
  · rw [labG, if_pos h1, h2]
  · rw [labG, if_neg (not_lt.mpr h2), h3]; ring

variable [FloatModel] [ExactModel]

omit [ExactModel] in
theorem mkXyz_limit (t : ColorType) (ht : Color.maxOf t = 100 ∧ Color.minOf t = 0) (x y z a : ℝ) (sp : Option Nat) :
    Color.mkXyz t (fin x) (fin y) (fin z) (fin a) sp = objL t [limit 0 100 x, limit 0 100 y, limit 0 100 z] a sp := by
  simp only [Color.mkXyz, objL, ht.1, ht.2, zero_def, lit_def, clamp_limit, List.map]

theorem labToY_labG (L : ℝ) : Leaf.labToY (fin L) = fin (labG ((L + 16) / 116)) := by
  simp only [Leaf.labToY, lit_def]
  rw [div_exact _ _ (by norm_num), div_exact _ _ (by norm_num)]
  simp only [fin_lt, mul_exact, add_exact]
  rw [div_exact _ _ (by norm_num), div_exact _ _ (by norm_num), labG]
  by_cases h : 8 < L
  · rw [if_pos (by norm_num; linarith), if_pos (by linarith), ExactModel.powf_eq _ _ (Or.inl (by linarith))]
    congr 1
    rw [← Real.rpow_natCast]; norm_num
  · rw [if_neg (by norm_num; linarith), if_neg (by linarith)]
    congr 1; ring

theorem labToXZ_labG (t : ℝ) : Leaf.labToXZ (fin t) = fin (labG t) := by
  simp only [Leaf.labToXZ, lit_def]
  rw [div_exact _ _ (by norm_num), div_exact _ _ (by norm_num), ExactModel.powf_eq _ _ (Or.inr (Or.inr ⟨3, by norm_num⟩))]
  simp only [fin_lt, mul_exact, sub_exact]
  rw [div_exact _ _ (by norm_num), show t ^ (3 : ℝ) = t ^ 3 by rw [← Real.rpow_natCast]; norm_num, labG]
  have h3 : (216 / 24389 : ℝ) = (6 / 29) ^ 3 := by norm_num
  have hiff : (216 / 24389 : ℝ) < t ^ 3 ↔ 6 / 29 < t := by
    rw [h3]
    exact (Odd.strictMono_pow (by decide : Odd 3)).lt_iff_lt
  simp only [hiff]
  split
  · rfl
  · congr 1; ring

end Formula

section
variable [FloatModel] [ExactModel] (w : World) (c : Color) (a : ℝ) (ha : c.malpha = fin a) (a0 : 0 ≤ a) (a1 : a ≤ 1)

/-! ## C110 xyY -/

section
include ha

/-- C110: xyY of a colour that is not black: the shares of X and Y in the sum, and Y. -/
theorem C110_to_xyy (x y z : ℝ) (hc : Is .xyz c [x, y, z]) (hx : 0 ≤ x) (hy : 0 ≤ y) (hy1 : y ≤ 100) (hz : 0 ≤ z) (hS : 0 < x + y + z) :
    GivesWith w c .xyy [x / (x + y + z), y / (x + y + z), y] a := by
  refine gives_objL (by simp) (by simp) (by simp) hc ha rfl fun sp => ?_
  change Leaf.xyz_to_xyy w _ = _
  have hne : ¬ (x = 0 ∧ y = 0 ∧ z = 0) := by rintro ⟨rfl, rfl, rfl⟩; simp at hS
  simp only [Leaf.xyz_to_xyy, objL_0, objL_1, objL_2, objL_space, deep_alpha (rfl : Color.scalesAlpha .xyz = false), ok_bind, zero_def, feq_fin, hne, if_false, add_exact,
    div_exact _ _ hS.ne', Color.construct_xyy, mkXyz_limit .xyy ⟨rfl, rfl⟩]
  have h1 : x / (x + y + z) ≤ 1 := by rw [div_le_one hS]; linarith
  have h2 : y / (x + y + z) ≤ 1 := by rw [div_le_one hS]; linarith
  rw [limit_of (by positivity) (by linarith), limit_of (by positivity) (by linarith), limit_of hy hy1]

/-- C110: black gets the chromaticities of the white point. -/
theorem C110_black (hc : Is .xyz c [0, 0, 0]) (s q : Nat) (hs : c.space = some s) (hq : (w.spaces s).white = some q) (u v : ℝ) (hu : (w.whites q).chrom.x = fin u)
    (hv : (w.whites q).chrom.y = fin v) : GivesWith w c .xyy [limit 0 100 u, limit 0 100 v, 0] a := by
  refine ⟨objL .xyy [limit 0 100 u, limit 0 100 v, 0] a c.space, (converts_iff (s := .xyz) (by simp) (by simp) hc.col).mpr ?_, ⟨⟨rfl, rfl, rfl, rfl, rfl⟩, rfl⟩, rfl, rfl⟩
  change Leaf.xyz_to_xyy w c = _
  conv_lhs => rw [objL_eq hc ha]
  simp only [Leaf.xyz_to_xyy, objL_0, objL_1, objL_2, objL_space, deep_alpha (rfl : Color.scalesAlpha .xyz = false), ok_bind, zero_def, feq_fin, true_and, if_true, World.space, hs,
    World.white, hq, hu, hv, Color.construct_xyy, mkXyz_limit .xyy ⟨rfl, rfl⟩]
  rw [limit_of (x := 0) le_rfl (by norm_num)]

/-- C110: XYZ of an xyY colour with y ≠ 0. -/
theorem C110_from_xyy (x y Y : ℝ) (hc : Is .xyy c [x, y, Y]) (hy : y ≠ 0) :
    GivesWith w c .xyz [limit 0 100 (x * Y / y), limit 0 100 Y, limit 0 100 ((1 - x - y) * Y / y)] a := by
  refine gives_objL (by simp) (by simp) (by simp) hc ha rfl fun sp => ?_
  change Leaf.xyy_to_xyz _ = _
  simp only [Leaf.xyy_to_xyz, objL_0, objL_1, objL_2, objL_space, deep_alpha (rfl : Color.scalesAlpha .xyy = false), ok_bind, zero_def, one_def, feq_fin, hy, if_false, mul_exact,
    sub_exact, div_exact _ _ hy, Color.construct_xyz, mkXyz_limit .xyz ⟨rfl, rfl⟩]

/-- C110: an xyY colour with y = 0 becomes black. -/
theorem C110_from_xyy_zero (x Y : ℝ) (hc : Is .xyy c [x, 0, Y]) : GivesWith w c .xyz [0, 0, 0] a := by
  refine gives_objL (by simp) (by simp) (by simp) hc ha rfl fun sp => ?_
  change Leaf.xyy_to_xyz _ = _
  simp only [Leaf.xyy_to_xyz, objL_0, objL_1, objL_2, objL_space, deep_alpha (rfl : Color.scalesAlpha .xyy = false), ok_bind, zero_def, feq_fin, if_true,
    Color.construct_xyz, mkXyz_limit .xyz ⟨rfl, rfl⟩]
  rw [limit_of (x := 0) le_rfl (by norm_num)]

end

/-! ## C111 LAB -/

section
include ha a0 a1

/-- C111: LAB of an XYZ colour, relative to the white point of its colour space. -/
theorem C111_to_lab (x y z : ℝ) (hc : Is .xyz c [x, y, z]) (hx : 0 ≤ x) (hy : 0 ≤ y) (hz : 0 ≤ z) (wx wy wz : ℝ) (hw : HasWhite w c.space wx wy wz)
    (px : 0 < wx) (py : 0 < wy) (pz : 0 < wz) :
    GivesWith w c .lab [limit 0 100 (116 * labF (y / wy) - 16), limit (-128) 128 (500 * (labF (x / wx) - labF (y / wy))), limit (-128) 128 (200 * (labF (y / wy) - labF (z / wz)))] a := by
  obtain ⟨s, q, hs, hq, ht⟩ := hw
  refine ⟨objL .lab [limit 0 100 (116 * labF (y / wy) - 16), limit (-128) 128 (500 * (labF (x / wx) - labF (y / wy))), limit (-128) 128 (200 * (labF (y / wy) - labF (z / wz)))] a c.space,
    (converts_iff (s := .xyz) (by simp) (by simp) hc.col).mpr ?_, ⟨⟨rfl, rfl, rfl, rfl, rfl⟩, rfl⟩, rfl, rfl⟩
  change Leaf.xyz_to_lab w c = _
  conv_lhs => rw [objL_eq hc ha]
  simp only [Leaf.xyz_to_lab, objL_0, objL_1, objL_2, objL_space, deep_alpha (rfl : Color.scalesAlpha .xyz = false), ok_bind, World.space, hs, World.white, hq, ht,
    div_exact _ _ px.ne', div_exact _ _ py.ne', div_exact _ _ pz.ne', Color.construct_lab]
  rw [xyzToLab_eq (by positivity), xyzToLab_eq (by positivity), xyzToLab_eq (by positivity)]
  have hal : Color.clamp (fin a) 1 0 = fin a := clamp01 a0 a1
  simp only [lit_def, mul_exact, sub_exact, Color.mkLab, Color.setAlpha, Color.scalesAlpha, Bool.false_eq_true, if_false, hal, zero_def, neg_fin, clamp_limit]
  simpa [objL, Color.maxOf, Color.minOf] using hal

/-- C111: XYZ of a LAB colour, relative to the white point of its colour space. -/
theorem C111_from_lab (L p q : ℝ) (hc : Is .lab c [L, p, q]) (wx wy wz : ℝ) (hw : HasWhite w c.space wx wy wz) :
    GivesWith w c .xyz [limit 0 100 (wx * labG ((L + 16) / 116 + p / 500)), limit 0 100 (wy * labG ((L + 16) / 116)), limit 0 100 (wz * labG ((L + 16) / 116 - q / 200))] a := by
  obtain ⟨s, q', hs, hq, ht⟩ := hw
  refine ⟨objL .xyz [limit 0 100 (wx * labG ((L + 16) / 116 + p / 500)), limit 0 100 (wy * labG ((L + 16) / 116)), limit 0 100 (wz * labG ((L + 16) / 116 - q / 200))] a c.space,
    (converts_iff (s := .lab) (by simp) (by simp) hc.col).mpr ?_, ⟨⟨rfl, rfl, rfl, rfl, rfl⟩, rfl⟩, rfl, rfl⟩
  change Leaf.lab_to_xyz w c = _
  conv_lhs => rw [objL_eq hc ha]
  simp only [Leaf.lab_to_xyz, objL_0, objL_1, objL_2, objL_space, deep_alpha (rfl : Color.scalesAlpha .lab = false), ok_bind, World.space, hs, World.white, hq, ht,
    Color.construct_xyz, labToY_labG]
  simp only [lit_def, add_exact]
  rw [div_exact _ 116 (by norm_num), div_exact _ 500 (by norm_num), div_exact _ 200 (by norm_num)]
  simp only [add_exact, sub_exact, labToXZ_labG, mul_exact]
  have hal : Color.clamp (fin a) 1 0 = fin a := clamp01 a0 a1
  simp only [Color.mkXyz, Color.setAlpha, Color.scalesAlpha, Bool.false_eq_true, if_false, hal, zero_def, lit_def, clamp_limit]
  rw [add_comm (p / 500), mul_comm _ wx, mul_comm _ wy, mul_comm _ wz]
  simpa [objL, Color.maxOf, Color.minOf] using hal

end

/-! ## C112 RGB and XYZ -/

/-- The sum of the primaries (columns of `P`) with the weights `k` of the white point and the linear channels `l`. -/
noncomputable def FormulaSpec.mixed (P : Matrix (Fin 3) (Fin 3) ℝ) (k l : Fin 3 → ℝ) (i : Fin 3) : ℝ := ∑ j, P i j * k j * l j

omit [FloatModel] [ExactModel] in
theorem mixed_eq {P : Matrix (Fin 3) (Fin 3) ℝ} {u k : Fin 3 → ℝ} (hd : P.det ≠ 0) (hk : P.mulVec k = u) (l : Fin 3 → ℝ) : (SpaceDef.idealMat P u).mulVec l = mixed P k l := by
  have hkw : P⁻¹.mulVec u = k := by
    rw [← hk, Matrix.mulVec_mulVec, Matrix.nonsing_inv_mul _ (isUnit_iff_ne_zero.mpr hd), Matrix.one_mulVec]
  funext i
  rw [SpaceDef.idealMat, hkw]
  simp [Matrix.mulVec, dotProduct, Fin.sum_univ_three, Matrix.mul_diagonal, mixed]

/-- C112: the XYZ value of an RGB colour is the sum of the primaries of its colour space, weighted by the linearised channels and scaled such that (1, 1, 1) is the white point. -/
theorem C112_to_xyz (r g b : ℝ) (h : IsRgb c r g b) (s m : Nat) (hs : c.space = some s) (hm : (w.spaces s).gamma = some m)
    (P : Matrix (Fin 3) (Fin 3) ℝ) (u k l : Fin 3 → ℝ) (hreach : SpaceReach w.whites (w.spaces s)) (hr : SpaceDef.Regular w.whites (w.spaces s) P u)
    (hk : P.mulVec k = u) (hl : ∀ i, 0 ≤ l i ∧ l i ≤ 1) (er : (w.gammas m).inverse w.parts (fin r) = fin (l 0)) (eg : (w.gammas m).inverse w.parts (fin g) = fin (l 1))
    (eb : (w.gammas m).inverse w.parts (fin b) = fin (l 2)) :
    Gives w c .xyz [limit 0 100 (mixed P k l 0), limit 0 100 (mixed P k l 1), limit 0 100 (mixed P k l 2)] := by
  have hT := Mat.mulVec_three (f := fin) Mat.emb_fin (SpaceDef.idealMat P u) ![l 0, l 1, l 2]
  rw [← (space_inv _ _ hreach P u hr).1, show ![l 0, l 1, l 2] = l by funext i; fin_cases i <;> rfl, mixed_eq hr.det hk] at hT
  refine gives_obj (s := .rgbDeep) (by simp) (by simp) (by simp) rfl rfl rfl h.col ?_
  change Val.rgb_deep_to_xyz w c = _
  have he := rgb_eq h
  generalize hal : c.malpha = al at he ⊢
  rw [he]
  simp only [Val.rgb_deep_to_xyz, Leaf.inverseGamma, obj_space, World.space, hs, ok_bind, World.gamma, hm]
  rw [applyGamma_unit _ er eg eb (hl 0) (hl 1) (hl 2)]
  simp only [Leaf.linear_to_xyz, obj_space, World.space, ok_bind]
  rw [show (obj .rgbDeep (l 0) (l 1) (l 2) al (some s)).comps = [fin (l 0), fin (l 1), fin (l 2)] from rfl, hT]
  simp only [ok_bind, Mat.vget, List.getElem?_cons_zero, List.getElem?_cons_succ, obj_alpha _ _ _ _ _ _ (rfl : Color.scalesAlpha .rgbDeep = false), Color.construct_xyz, Color.mkXyz,
    zero_def, lit_def, clamp_limit]
  simp [obj, Color.maxOf, Color.minOf]

/-- C112: the RGB value of an XYZ colour: the shares `l` of the primaries, limited to 0 … 1 and sent through the gamma correction.  Colours outside the gamut are included. -/
theorem C112_from_xyz (s m : Nat) (hs : c.space = some s) (hm : (w.spaces s).gamma = some m)
    (P : Matrix (Fin 3) (Fin 3) ℝ) (u k l : Fin 3 → ℝ) (hreach : SpaceReach w.whites (w.spaces s)) (hr : SpaceDef.Regular w.whites (w.spaces s) P u)
    (hk : P.mulVec k = u) (hk0 : ∀ i, k i ≠ 0) (hc : Is .xyz c [mixed P k l 0, mixed P k l 1, mixed P k l 2]) (r g b : ℝ)
    (er : (w.gammas m).correct w.parts (fin (clip (l 0))) = fin r) (eg : (w.gammas m).correct w.parts (fin (clip (l 1))) = fin g)
    (eb : (w.gammas m).correct w.parts (fin (clip (l 2))) = fin b) : Gives w c .rgbDeep [clip r, clip g, clip b] := by
  have hT := Mat.mulVec_three (f := fin) Mat.emb_fin (SpaceDef.idealMat P u) ![l 0, l 1, l 2]
  rw [← (space_inv _ _ hreach P u hr).1, show ![l 0, l 1, l 2] = l by funext i; fin_cases i <;> rfl, mixed_eq hr.det hk] at hT
  have hI := ((C32_inverse _ _ hreach P u k hr hk hk0).2 (l 0) (l 1) (l 2)).1
  rw [hT, ok_bind] at hI
  refine gives_obj (s := .xyz) (by simp) (by simp) (by simp) rfl rfl rfl hc.col ?_
  change Leaf.xyz_to_rgb_deep w c = _
  have hcomps : c.comps = [fin (mixed P k l 0), fin (mixed P k l 1), fin (mixed P k l 2)] := hc.comps
  have hal : c.alpha = c.malpha := by simp [Color.alpha, hc.col.cls, Color.scalesAlpha]
  simp only [Leaf.xyz_to_rgb_deep, World.space, hs, ok_bind, hcomps, hI, Mat.vget, List.getElem?_cons_zero, List.getElem?_cons_succ, Color.construct_rgbDeep, mkRgb_clip, hal]
  have hcl : ∀ x, 0 ≤ clip x ∧ clip x ≤ 1 := fun x => ⟨le_max_left _ _, max_le (by norm_num) (min_le_left _ _)⟩
  have h1 := hcl (l 0); have h2 := hcl (l 1); have h3 := hcl (l 2)
  generalize clip (l 0) = lr at *
  generalize clip (l 1) = lg at *
  generalize clip (l 2) = lb at *
  obtain ⟨s1, s2, s3⟩ : (obj .rgbDeep lr lg lb c.malpha (some s)).setChannel 0 (fin lr) = ok (obj .rgbDeep lr lg lb c.malpha (some s)) ∧
      (obj .rgbDeep lr lg lb c.malpha (some s)).setChannel 1 (fin lg) = ok (obj .rgbDeep lr lg lb c.malpha (some s)) ∧
      (obj .rgbDeep lr lg lb c.malpha (some s)).setChannel 2 (fin lb) = ok (obj .rgbDeep lr lg lb c.malpha (some s)) := by
    simp [obj, Color.setChannel, Color.setComponent, Color.setComponentLim, Color.maxOf, Color.minOf, Color.clamp_fin, h1, h2, h3]
  simp only [obj_0, obj_1, obj_2, ok_bind, clampFloat_unit h1.1 h1.2, clampFloat_unit h2.1 h2.2, clampFloat_unit h3.1 h3.2, s1, s2, s3]
  simp only [Leaf.forwardGamma, obj_space, World.space, ok_bind, World.gamma, hm]
  simp only [Color.applyGamma, obj, List.map, er, eg, eb, Color.maxOf, Color.minOf, clamp_clip]

/-! ## C113 CIELUV -/

/-- The relative luminance of a CIELUV lightness, with the constants of the code. -/
noncomputable def FormulaSpec.luvY (L : ℝ) : ℝ := if 903.3 * 0.008856 < L then ((L + 16) / 116) ^ 3 else L / 903.3

section
include ha

/-- C113: XYZ of a CIELUV colour with positive lightness: the luminance belongs to the lightness, and the chromaticities u' = 4X/(X+15Y+3Z) and v' = 9Y/(X+15Y+3Z) are those of
the white point plus u/(13L) and v/(13L). -/
theorem C113_from_luv (L u v : ℝ) (hc : Is .cieluv c [L, u, v]) (hL : 0 < L) (wx wy wz : ℝ) (hw : HasWhite w c.space wx wy wz) (hD : wx + 15 * wy + 3 * wz ≠ 0)
    (p q : ℝ) (hp : p = u / (13 * L) + 4 * wx / (wx + 15 * wy + 3 * wz)) (hq : q = v / (13 * L) + 9 * wy / (wx + 15 * wy + 3 * wz)) (hp0 : p ≠ 0) (hq0 : q ≠ 0) :
    ∃ X Z, 4 * X = p * (X + 15 * luvY L + 3 * Z) ∧ 9 * luvY L = q * (X + 15 * luvY L + 3 * Z) ∧
      GivesWith w c .xyz [limit 0 100 X, limit 0 100 (luvY L), limit 0 100 Z] a := by
  obtain ⟨s, wq, hs, hwq, ht⟩ := hw
  refine ⟨9 * luvY L * p / (4 * q), luvY L * (12 - 3 * p - 20 * q) / (4 * q), by field_simp; ring, by field_simp; ring, ?_⟩
  refine ⟨objL .xyz [limit 0 100 (9 * luvY L * p / (4 * q)), limit 0 100 (luvY L), limit 0 100 (luvY L * (12 - 3 * p - 20 * q) / (4 * q))] a c.space,
    (converts_iff (s := .cieluv) (by simp) (by simp) hc.col).mpr ?_, ⟨⟨rfl, rfl, rfl, rfl, rfl⟩, rfl⟩, rfl, rfl⟩
  change Leaf.cieluv_to_xyz w c = _
  conv_lhs => rw [objL_eq hc ha]
  simp only [Leaf.cieluv_to_xyz, objL_0, objL_1, objL_2, objL_space, deep_alpha (rfl : Color.scalesAlpha .cieluv = false), ok_bind, World.space, hs, World.white, hwq, ht,
    Color.construct_xyz, lit_exact, lit_def, one_def, neg_fin, mul_exact, add_exact, sub_exact, fin_lt]
  have e1 : u + 13 * L * (4 * wx / (wx + 15 * wy + 3 * wz)) = 13 * L * p := by rw [hp]; field_simp
  have e2 : v + 13 * L * (9 * wy / (wx + 15 * wy + 3 * wz)) = 13 * L * q := by rw [hq]; field_simp
  rw [div_exact _ _ hD, div_exact _ _ hD, div_exact _ _ (by norm_num : (903.3 : ℝ) ≠ 0), div_exact _ _ (by norm_num : (116 : ℝ) ≠ 0),
    ExactModel.powf_eq _ _ (Or.inl (by positivity)), ← apply_ite fin, show ((L + 16) / 116) ^ (3 : ℝ) = ((L + 16) / 116) ^ 3 by rw [← Real.rpow_natCast]; norm_num,
    show (if 903.3 * 0.008856 < L then ((L + 16) / 116) ^ 3 else L / 903.3) = luvY L from rfl, div_exact _ _ (by norm_num : (3 : ℝ) ≠ 0), div_exact _ _ (by norm_num : (3 : ℝ) ≠ 0)]
  simp only [mul_exact, add_exact, e1, e2]
  rw [div_exact _ _ (by positivity), div_exact _ _ (by positivity)]
  simp only [mul_exact, add_exact, sub_exact]
  have e3 : 1 / 3 * (52 * L / (13 * L * p) - 1) - -1 / 3 = 4 / (3 * p) := by field_simp; ring
  rw [e3, div_exact _ _ (by positivity)]
  simp only [mul_exact, add_exact, mkXyz_limit .xyz ⟨rfl, rfl⟩, hs]
  have e4 : (luvY L * (39 * L / (13 * L * q) - 5) - -5 * luvY L) / (4 / (3 * p)) = 9 * luvY L * p / (4 * q) := by field_simp; ring
  have e5 : 9 * luvY L * p / (4 * q) * (1 / 3 * (52 * L / (13 * L * p) - 1)) + -5 * luvY L = luvY L * (12 - 3 * p - 20 * q) / (4 * q) := by field_simp; ring
  rw [e4, e5]

/-- What the code computes for CIELUV: the lightness comes from X instead of Y, and the white point's v' is 4/9 of what it should be. -/
theorem C113_to_luv (x y z : ℝ) (hc : Is .xyz c [x, y, z]) (hx : 0 ≤ x) (wx wy wz : ℝ) (hw : HasWhite w c.space wx wy wz) (py : 0 < wy)
    (hD : x + 15 * y + 3 * z ≠ 0) (hDW : wx + 15 * wy + 3 * wz ≠ 0) :
    GivesWith w c .cieluv [limit 0 100 (luvL (x / wy)), limit (-100) 100 (13 * luvL (x / wy) * (4 * x / (x + 15 * y + 3 * z) - 4 * wx / (wx + 15 * wy + 3 * wz))),
      limit (-100) 100 (13 * luvL (x / wy) * (9 * y / (x + 15 * y + 3 * z) - 4 * wy / (wx + 15 * wy + 3 * wz)))] a := by
  obtain ⟨s, q, hs, hq, ht⟩ := hw
  refine ⟨objL .cieluv [limit 0 100 (luvL (x / wy)), limit (-100) 100 (13 * luvL (x / wy) * (4 * x / (x + 15 * y + 3 * z) - 4 * wx / (wx + 15 * wy + 3 * wz))),
      limit (-100) 100 (13 * luvL (x / wy) * (9 * y / (x + 15 * y + 3 * z) - 4 * wy / (wx + 15 * wy + 3 * wz)))] a c.space,
    (converts_iff (s := .xyz) (by simp) (by simp) hc.col).mpr ?_, ⟨⟨rfl, rfl, rfl, rfl, rfl⟩, rfl⟩, rfl, rfl⟩
  change Leaf.xyz_to_cieluv w c = _
  conv_lhs => rw [objL_eq hc ha]
  simp only [Leaf.xyz_to_cieluv, objL_0, objL_1, objL_2, objL_space, deep_alpha (rfl : Color.scalesAlpha .xyz = false), ok_bind, World.space, hs, World.white, hq, ht,
    Color.construct_cieluv, lit_exact, lit_def, one_def]
  have hpow : powf (fin (x / wy)) (fin (1 / 3)) = fin ((x / wy) ^ (1 / 3 : ℝ)) := by
    refine ExactModel.powf_eq _ _ ?_
    rcases (div_nonneg hx py.le).eq_or_lt with h | h
    · exact Or.inr (Or.inl ⟨h.symm, by norm_num⟩)
    · exact Or.inl h
  rw [div_exact _ _ py.ne', div_exact _ _ (by norm_num : (3 : ℝ) ≠ 0), hpow]
  simp only [mul_exact, add_exact, sub_exact, fin_lt]
  rw [div_exact _ _ hD, div_exact _ _ hD, div_exact _ _ hDW, div_exact _ _ hDW, ← apply_ite fin,
    show (if (0.008856 : ℝ) < x / wy then 116 * (x / wy) ^ (1 / 3 : ℝ) - 16 else 903.3 * (x / wy)) = luvL (x / wy) from rfl]
  simp only [mul_exact, sub_exact, Color.mkCieluv, zero_def, lit_def, neg_fin, clamp_limit]
  simp [objL, Color.maxOf, Color.minOf]

/-- C113 (violated): the white point itself does not become the neutral colour of lightness 100; its v component is positive, whatever the white point is. -/
theorem C113_to_luv_violated (wx wy wz : ℝ) (hc : Is .xyz c [wx, wy, wz]) (hw : HasWhite w c.space wx wy wz) (px : 0 < wx) (py : 0 < wy) (pz : 0 < wz) :
    ∃ L u v, GivesWith w c .cieluv [L, u, v] a ∧ 0 < v := by
  have hD : 0 < wx + 15 * wy + 3 * wz := by positivity
  refine ⟨_, _, _, C113_to_luv w c a ha wx wy wz hc px.le wx wy wz hw py hD.ne' hD.ne', ?_⟩
  rw [limit, lt_max_iff]
  right
  refine lt_min (by norm_num) ?_
  have h1 : 0 < luvL (wx / wy) := luvL_pos (by positivity)
  have h2 : 9 * wy / (wx + 15 * wy + 3 * wz) - 4 * wy / (wx + 15 * wy + 3 * wz) = 5 * wy / (wx + 15 * wy + 3 * wz) := by ring
  rw [h2]
  positivity

end

/-! ## C114 LCH -/

section
include ha a0 a1

/-- C114: LAB or CIELUV of an LCH colour: lightness, and the chroma in the direction of the hue, an angle in degrees. -/
theorem C114_from_lch {t l : ColorType} {M : ℝ} (htl : Polar t l M) (L C h : ℝ) (hc : Is l c [L, C, h]) (L0 : 0 ≤ L) (L1 : L ≤ 100) (C0 : 0 ≤ C) (C1 : C ≤ 100) :
    GivesWith w c t [L, C * Real.cos (h * Real.pi / 180), C * Real.sin (h * Real.pi / 180)] a := by
  have hM' : 100 ≤ M := by cases htl <;> norm_num
  have hal : Color.clamp (fin a) 1 0 = fin a := clamp01 a0 a1
  have cM : ∀ v : ℝ, |v| ≤ 1 → limit (-M) M (C * v) = C * v := by
    intro v hv
    have : |C * v| ≤ M := by
      rw [abs_mul, abs_of_nonneg C0]
      calc C * |v| ≤ 100 * 1 := by gcongr
        _ ≤ M := by linarith
    rw [abs_le] at this
    exact limit_of this.1 this.2
  have cc := cM _ (Real.abs_cos_le_one (h * Real.pi / 180))
  have cs := cM _ (Real.abs_sin_le_one (h * Real.pi / 180))
  refine gives_objL (by cases htl <;> decide) (by cases htl <;> decide) (by cases htl <;> decide) hc ha (by cases htl <;> rfl) fun sp => ?_
  have e : ∀ d, Val.conv l t w d = Leaf.from_lch t d := by cases htl <;> exact fun _ => rfl
  rw [e]
  have hs : Color.scalesAlpha l = false := by cases htl <;> rfl
  simp only [Leaf.from_lch, objL_0, objL_1, objL_2, objL_space, deep_alpha hs, ok_bind, lit_exact, lit_def, mul_exact]
  rw [div_exact _ _ (by norm_num), ExactModel.cosf_eq, ExactModel.sinf_eq, mul_exact, mul_exact]
  cases htl
  · simp only [Color.construct_lab, Color.mkLab, lit_def, zero_def, neg_fin, clamp_limit, cc, cs, limit_of L0 L1, ok_bind, Color.setAlpha, Color.scalesAlpha, Bool.false_eq_true, if_false]
    simpa [objL, Color.maxOf, Color.minOf] using hal
  · simp only [Color.construct_cieluv, Color.mkCieluv, lit_def, zero_def, neg_fin, clamp_limit, cc, cs, limit_of L0 L1, ok_bind, Color.setAlpha, Color.scalesAlpha, Bool.false_eq_true,
      if_false]
    simpa [objL, Color.maxOf, Color.minOf] using hal

/-- What the code computes for LCH: the chroma is rescaled from -M … M to 0 … 100 and the hue is the angle in radians. -/
theorem C114_to_lch {t l : ColorType} {M : ℝ} (htl : Polar t l M) (L p q : ℝ) (hc : Is t c [L, p, q]) (L0 : 0 ≤ L) (L1 : L ≤ 100) :
    GivesWith w c l [L, lchChroma M p q, lchHue p q] a := by
  have e2 : ∀ x : ℝ, powf (fin x) (fin 2) = fin (x ^ 2) := by
    intro x
    rw [ExactModel.powf_eq _ _ (Or.inr (Or.inr ⟨2, by norm_num⟩))]
    norm_num
  have hM : 0 < M := by cases htl <;> norm_num
  have hal : Color.clamp (fin a) 1 0 = fin a := clamp01 a0 a1
  obtain ⟨H0, H1⟩ := lchHue_range p q
  obtain ⟨C0, C1⟩ := lchChroma_range hM p q
  have hcl : Color.clamp (fin ((Real.sqrt (p ^ 2 + q ^ 2) + M) * 100 / (2 * M))) 100 0 = fin (lchChroma M p q) := by
    simp only [lit_def, zero_def, Color.clamp_fin]
    rw [max_eq_left]; · rfl
    exact C0
  have hhl : Color.clamp (fin (if Complex.arg ⟨p, q⟩ < 0 then Complex.arg ⟨p, q⟩ + 360 else Complex.arg ⟨p, q⟩)) 359 0 = fin (lchHue p q) := by
    simp only [lit_def, zero_def, Color.clamp_fin]
    rw [max_eq_left]; · rfl
    exact H0
  have hr : 0 ≤ p ^ 2 + q ^ 2 := by positivity
  have key1 : (Leaf.transformRange (Fl.sqrt (powf (fin p) 2 + powf (fin q) 2)) (fin (-M)) (fin M) 0 100) = fin ((Real.sqrt (p ^ 2 + q ^ 2) + M) * 100 / (2 * M)) := by
    simp only [Leaf.transformRange, lit_def, zero_def, e2, add_exact, sqrt_exact _ hr, sub_exact, mul_exact]
    rw [div_exact _ _ (by linarith), add_exact]
    congr 1
    rw [show M - -M = 2 * M by ring]; ring
  have key2 : (if atan2f (fin q) (fin p) < 0 then atan2f (fin q) (fin p) + 360 else atan2f (fin q) (fin p)) =
      fin (if Complex.arg ⟨p, q⟩ < 0 then Complex.arg ⟨p, q⟩ + 360 else Complex.arg ⟨p, q⟩) := by
    simp only [ExactModel.atan2f_eq, zero_def, fin_lt, lit_def, add_exact, ← apply_ite fin]
  refine gives_objL (by cases htl <;> decide) (by cases htl <;> decide) (by cases htl <;> decide) hc ha (by cases htl <;> rfl) fun sp => ?_
  have e : ∀ d, Val.conv t l w d = Leaf.to_lch l d := by cases htl <;> exact fun _ => rfl
  rw [e]
  have hs : Color.scalesAlpha t = false := by cases htl <;> rfl
  have hmax : (objL t [L, p, q] a sp).maxv = fin M := by cases htl <;> simp [objL, Color.maxOf]
  have hmin : (objL t [L, p, q] a sp).minv = fin (-M) := by cases htl <;> simp [objL, Color.minOf]
  simp only [Leaf.to_lch, objL_0, objL_1, objL_2, objL_space, deep_alpha hs, ok_bind, hmax, hmin, key1, key2]
  cases htl
  · simp only [Color.construct_lchAb, Color.mkLch, hcl, hhl, clamp100 L0 L1, ok_bind, Color.setAlpha, Color.scalesAlpha, Bool.false_eq_true, if_false, hal]
    rfl
  · simp only [Color.construct_lchUv, Color.mkLch, hcl, hhl, clamp100 L0 L1, ok_bind, Color.setAlpha, Color.scalesAlpha, Bool.false_eq_true, if_false, hal]
    rfl

/-- C114 (violated): every grey, whose chroma is 0, gets chroma 50. -/
theorem C114_to_lch_violated {t l : ColorType} {M : ℝ} (htl : Polar t l M) (L : ℝ) (hc : Is t c [L, 0, 0]) (L0 : 0 ≤ L) (L1 : L ≤ 100) :
    GivesWith w c l [L, 50, 0] a := by
  have h := C114_to_lch w c a ha a0 a1 htl L 0 0 hc L0 L1
  have hM : 0 < M := by cases htl <;> norm_num
  have e1 : lchChroma M 0 0 = 50 := by
    have : (0 + M) * 100 / (2 * M) = 50 := by field_simp; ring
    simp only [lchChroma, ne_eq, OfNat.ofNat_ne_zero, not_false_eq_true, zero_pow, add_zero, Real.sqrt_zero, this]
    norm_num
  have e2 : lchHue 0 0 = 0 := by
    have : (⟨0, 0⟩ : ℂ) = 0 := rfl
    simp [lchHue, this]
  rwa [e1, e2] at h

end

end

/-! ## Cases -/

section
variable [FloatModel] [ExactModel]

/- xyY of XYZ (20, 30, 50), and back. -/
example (w : World) : GivesWith w (objL .xyz [20, 30, 50] 1 none) .xyy [0.2, 0.3, 30] 1 := by
  have := C110_to_xyy w (objL .xyz [20, 30, 50] 1 none) 1 rfl 20 30 50 ⟨⟨rfl, rfl, rfl, rfl, rfl⟩, rfl⟩ (by norm_num) (by norm_num) (by norm_num) (by norm_num) (by norm_num)
  norm_num at this ⊢
  exact this

example (w : World) : GivesWith w (objL .xyy [0.2, 0.3, 30] 1 none) .xyz [20, 30, 50] 1 := by
  have := C110_from_xyy w (objL .xyy [0.2, 0.3, 30] 1 none) 1 rfl 0.2 0.3 30 ⟨⟨rfl, rfl, rfl, rfl, rfl⟩, rfl⟩ (by norm_num)
  norm_num [limit] at this ⊢
  exact this

/- LAB of the white point of sRGB. -/
example [StdSort] : ∃ w : World, GivesWith w (objL .xyz [0.9504, 1, 1.0888] 1 (some 0)) .lab [100, 0, 0] 1 := by
  obtain ⟨w, -, -, hw, hq, -⟩ := exists_world .sRGB .g2_2
  have := C111_to_lab w (objL .xyz [0.9504, 1, 1.0888] 1 (some 0)) 1 rfl (by norm_num) (by norm_num) 0.9504 1 1.0888 ⟨⟨rfl, rfl, rfl, rfl, rfl⟩, rfl⟩ (by norm_num) (by norm_num)
    (by norm_num) 0.9504 1 1.0888 ⟨0, 0, rfl, hw, by rw [hq]; simp [WhitePreset.create, WhitePoint.make, SpacePreset.white, WhitePreset.literals]⟩ (by norm_num) (by norm_num) (by norm_num)
  refine ⟨w, ?_⟩
  norm_num [limit, labF] at this ⊢
  exact this

/-- C112: RGB white becomes the white point and back, in every predefined colour space with every predefined gamma curve. -/
theorem C112_white [StdSort] (p : SpacePreset) (gp : GammaPreset) (al : Fl) : ∃ w : World, w.Usable (some 0) ∧ Gives w (rgbOf 1 1 1 al (some 0)) .xyz (List.ofFn (presetWhite p)) ∧
    ∀ c, c.space = some 0 → Is .xyz c (List.ofFn (presetWhite p)) → Gives w c .rgbDeep [1, 1, 1] := by
  obtain ⟨w, hw, hm, -, -, hreach, hr, he⟩ := exists_world p gp
  obtain ⟨gm, hgm, hgm'⟩ := preset_curves gp (fun _ => ⟨none, 1⟩) 0
  obtain ⟨gm', hg', ⟨-, c1, -⟩, ⟨-, i1, -⟩⟩ := C29_ends gp (fun _ => ⟨none, 1⟩) 0
  rw [hgm, ok_inj] at hg'
  subst hg'
  rw [(hgm' _).1, ← (he _).1] at c1
  rw [(hgm' _).2, ← (he _).2] at i1
  have hd := preset_det p
  have hwt := weights_cramer _ (presetWhite p) hd.ne'
  have hmix : mixed (presetPrimaries p) (fun i => ((presetPrimaries p).updateCol i (presetWhite p)).det / (presetPrimaries p).det) (fun _ => 1) = presetWhite p := by
    conv_rhs => rw [← hwt]
    funext i
    simp [mixed, Matrix.mulVec, dotProduct]
  have hl : ∀ i, limit 0 100 (presetWhite p i) = presetWhite p i := by
    intro i
    refine limit_of ?_ ?_ <;> cases p <;> fin_cases i <;> norm_num [presetWhite, SpacePreset.white, WhitePreset.literals]
  refine ⟨w, hw, ?_, fun c hc hx => ?_⟩
  · have := C112_to_xyz w (rgbOf 1 1 1 al (some 0)) 1 1 1 (isRgb_rgbOf _ _ (by norm_num)) 0 0 rfl hm _ _ _ (fun _ => 1) hreach hr hwt (by norm_num) i1 i1 i1
    rw [hmix, hl, hl, hl] at this
    simpa [List.ofFn_succ] using this
  · have := C112_from_xyz w c 0 0 hc hm _ _ _ (fun _ => 1) hreach hr hwt (fun i => div_ne_zero ((preset_weights p).1 i) hd.ne') (by rw [hmix]; simpa [List.ofFn_succ] using hx) 1 1 1
      (by simpa [clip] using c1) (by simpa [clip] using c1) (by simpa [clip] using c1)
    simpa [clip] using this

/- CIELUV (50, 0, 0) of sRGB becomes a grey: the chromaticities of the result are those of the white point. -/
example [StdSort] : ∃ w : World, ∃ X Z : ℝ, X / luvY 50 = 0.9504 ∧ Z / luvY 50 = 1.0888 ∧
    GivesWith w (objL .cieluv [50, 0, 0] 1 (some 0)) .xyz [limit 0 100 X, limit 0 100 (luvY 50), limit 0 100 Z] 1 := by
  obtain ⟨w, -, -, hw, hq, -⟩ := exists_world .sRGB .g2_2
  obtain ⟨X, Z, h1, h2, h⟩ := C113_from_luv w (objL .cieluv [50, 0, 0] 1 (some 0)) 1 rfl 50 0 0 ⟨⟨rfl, rfl, rfl, rfl, rfl⟩, rfl⟩ (by norm_num) 0.9504 1 1.0888
    ⟨0, 0, rfl, hw, by rw [hq]; simp [WhitePreset.create, WhitePoint.make, SpacePreset.white, WhitePreset.literals]⟩ (by norm_num) _ _ rfl rfl (by norm_num) (by norm_num)
  refine ⟨w, X, Z, ?_, ?_, h⟩ <;> norm_num [luvY] at h1 h2 ⊢ <;> linarith

/- The white point of sRGB in CIELUV. -/
example [StdSort] : ∃ w : World, ∃ L u v, GivesWith w (objL .xyz [0.9504, 1, 1.0888] 1 (some 0)) .cieluv [L, u, v] 1 ∧ 0 < v := by
  obtain ⟨w, -, -, hw, hq, -⟩ := exists_world .sRGB .g2_2
  exact ⟨w, C113_to_luv_violated w (objL .xyz [0.9504, 1, 1.0888] 1 (some 0)) 1 rfl 0.9504 1 1.0888 ⟨⟨rfl, rfl, rfl, rfl, rfl⟩, rfl⟩
    ⟨0, 0, rfl, hw, by rw [hq]; simp [WhitePreset.create, WhitePoint.make, SpacePreset.white, WhitePreset.literals]⟩ (by norm_num) (by norm_num) (by norm_num)⟩

/- A grey of LAB. -/
example (w : World) : GivesWith w (objL .lab [50, 0, 0] 1 none) .lchAb [50, 50, 0] 1 :=
  C114_to_lch_violated w _ 1 rfl (by norm_num) (by norm_num) .ab 50 ⟨⟨rfl, rfl, rfl, rfl, rfl⟩, rfl⟩ (by norm_num) (by norm_num)

/- LCH (50, 60, 90): hue 90 degrees is the direction of the third component. -/
example (w : World) : GivesWith w (objL .lchUv [50, 60, 90] 1 none) .cieluv [50, 0, 60] 1 := by
  have := C114_from_lch w (objL .lchUv [50, 60, 90] 1 none) 1 rfl (by norm_num) (by norm_num) .uv 50 60 90 ⟨⟨rfl, rfl, rfl, rfl, rfl⟩, rfl⟩ (by norm_num) (by norm_num) (by norm_num) (by norm_num)
  rw [show (90 : ℝ) * Real.pi / 180 = Real.pi / 2 by ring] at this
  simpa using this

end

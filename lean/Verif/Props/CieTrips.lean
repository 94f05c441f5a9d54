import Verif.Props.RoundTrips
import Verif.Nan
import Mathlib.Analysis.SpecialFunctions.Pow.Real
import Mathlib.Analysis.SpecialFunctions.Complex.Arg

/-!
# Round trips between the CIE spaces (C46–C50)

Exact arithmetic.
-/

open Outcome Fl Prog ObjectSpec ConvSpec Hue

namespace ConvSpec

/-- `c` is a CIE XYZ colour with components between 0 and 100. -/
structure IsXyz (c : Color) (x y z : ℝ) : Prop where
  col : IsColor .xyz c
  comps : c.comps = [fin x, fin y, fin z]
  x0 : 0 ≤ x
  x1 : x ≤ 100
  y0 : 0 ≤ y
  y1 : y ≤ 100
  z0 : 0 ≤ z
  z1 : z ≤ 100

/-- The white point of the colour space at `sp` has the tristimulus values `wx`, `wy`, `wz`. -/
def HasWhite (w : World) (sp : Option Nat) (wx wy wz : ℝ) : Prop :=
  ∃ s q, sp = some s ∧ (w.spaces s).white = some q ∧ (w.whites q).tri = ⟨fin wx, fin wy, fin wz⟩

/-- The function `f` of the definition of CIE LAB. -/
noncomputable def labF (t : ℝ) : ℝ := if (6 / 29) ^ 3 < t then t ^ (1 / 3 : ℝ) else 841 / 108 * t + 4 / 29

end ConvSpec

section
variable [FloatModel]

theorem ConvSpec.IsXyz.eq {c : Color} {x y z : ℝ} (h : IsXyz c x y z) : c = obj .xyz x y z c.malpha c.space := by
  obtain ⟨⟨h1, h2, -, h3, h4⟩, h5, -⟩ := h
  cases c
  simp only at *
  simp [h1, h2, h3, h4, h5, obj]

theorem clamp100 {x : ℝ} (h0 : 0 ≤ x) (h1 : x ≤ 100) : Color.clamp (fin x) 100 0 = fin x := by simp [Color.clamp_fin, h0, h1]

theorem mkXyz_obj (t : ColorType) (ht : Color.maxOf t = 100 ∧ Color.minOf t = 0) (al : Fl) (sp : Option Nat) {x y z : ℝ}
    (x0 : 0 ≤ x) (x1 : x ≤ 100) (y0 : 0 ≤ y) (y1 : y ≤ 100) (z0 : 0 ≤ z) (z1 : z ≤ 100) :
    Color.mkXyz t (fin x) (fin y) (fin z) al sp = obj t x y z al sp := by
  simp only [Color.mkXyz, clamp100 x0 x1, clamp100 y0 y1, clamp100 z0 z1, obj, ht.1, ht.2]

end

section
variable [FloatModel] [ExactModel]

/-! ## C46 XYZ and xyY -/

/-- **C46 (partial)** XYZ → xyY → XYZ is the identity for every colour with positive Y.  The full statement is false, see `C46_violated`. -/
theorem C46_xyy_partial (w : World) (c : Color) (x y z : ℝ) (h : IsXyz c x y z) (hy : 0 < y) : Trip w c .xyy .xyz c := by
  obtain ⟨-, -, x0, x1, y0, y1, z0, z1⟩ := id h
  have hS : 0 < x + y + z := by linarith
  have he := h.eq
  refine trip_of (s := .xyz) (d := obj .xyy (x / (x + y + z)) (y / (x + y + z)) y c.malpha c.space) (by decide) (by decide) (by decide) h.col ?_ ?_
  · change Leaf.xyz_to_xyy w c = _
    rw [he]
    simp only [Leaf.xyz_to_xyy, obj_0, obj_1, obj_2, obj_space, obj_malpha, obj_alpha _ _ _ _ _ _ (rfl : Color.scalesAlpha .xyz = false), ok_bind, zero_def, feq_fin, hy.ne',
      false_and, and_false, if_false, add_exact, Color.construct_xyy]
    rw [div_exact _ _ hS.ne', div_exact _ _ hS.ne']
    have : x / (x + y + z) ≤ 1 := by rw [div_le_one hS]; linarith
    have : y / (x + y + z) ≤ 1 := by rw [div_le_one hS]; linarith
    rw [mkXyz_obj _ ⟨rfl, rfl⟩ _ _ (by positivity) (by linarith) (by positivity) (by linarith) y0 y1]
  · change Leaf.xyy_to_xyz _ = _
    have hy' : y / (x + y + z) ≠ 0 := (div_pos hy hS).ne'
    simp only [Leaf.xyy_to_xyz, obj_0, obj_1, obj_2, obj_space, obj_malpha, obj_alpha _ _ _ _ _ _ (rfl : Color.scalesAlpha .xyy = false), ok_bind, zero_def, one_def, feq_fin, hy',
      if_false, mul_exact, sub_exact, Color.construct_xyz]
    rw [div_exact _ _ hy', div_exact _ _ hy', show x / (x + y + z) * y / (y / (x + y + z)) = x by field_simp,
      show (1 - x / (x + y + z) - y / (x + y + z)) * y / (y / (x + y + z)) = z by field_simp; ring, mkXyz_obj _ ⟨rfl, rfl⟩ _ _ x0 x1 y0 y1 z0 z1, ← he]

/-- **C46 (partial)** Black survives, whatever the white point is. -/
theorem C46_black_partial (w : World) (c : Color) (h : IsXyz c 0 0 0) (s q : Nat) (hs : c.space = some s) (hq : (w.spaces s).white = some q) : Trip w c .xyy .xyz c := by
  have he := h.eq
  have hin : ∀ v : Fl, ∃ r : ℝ, Color.clamp v 100 0 = fin r := by
    intro v
    have := Color.clamp_inRange v (mn := 0) (mx := 100) (by simp)
    obtain ⟨r, hr, -⟩ := this
    exact ⟨r, by simpa using hr⟩
  obtain ⟨u, hu⟩ := hin (w.whites q).chrom.x
  obtain ⟨v, hv⟩ := hin (w.whites q).chrom.y
  have h0 := clamp100 (x := 0) le_rfl (by norm_num)
  refine trip_of (s := .xyz) (d := obj .xyy u v 0 c.malpha c.space) (by decide) (by decide) (by decide) h.col ?_ ?_
  · change Leaf.xyz_to_xyy w c = _
    rw [he]
    simp only [Leaf.xyz_to_xyy, obj_0, obj_1, obj_2, obj_space, obj_malpha, obj_alpha _ _ _ _ _ _ (rfl : Color.scalesAlpha .xyz = false), ok_bind, zero_def, feq_fin,
      true_and, if_true, World.space, hs, World.white, hq, Color.construct_xyy, Color.mkXyz]
    simp only [zero_def] at hu hv h0
    rw [hu, hv, h0]
    simp [obj, Color.maxOf, Color.minOf]
  · change Leaf.xyy_to_xyz _ = _
    simp only [Leaf.xyy_to_xyz, obj_0, obj_1, obj_2, obj_space, obj_malpha, obj_alpha _ _ _ _ _ _ (rfl : Color.scalesAlpha .xyy = false), ok_bind, zero_def, one_def, feq_fin,
      mul_exact, sub_exact, Color.construct_xyz]
    split
    · rw [mkXyz_obj _ ⟨rfl, rfl⟩ _ _ le_rfl (by norm_num) le_rfl (by norm_num) le_rfl (by norm_num), ← he]
    · rename_i hv0
      rw [div_exact _ _ hv0, div_exact _ _ hv0, mul_zero, mul_zero, zero_div, mkXyz_obj _ ⟨rfl, rfl⟩ _ _ le_rfl (by norm_num) le_rfl (by norm_num) le_rfl (by norm_num), ← he]

/-- **C46 violated** Every colour with Y = 0 that is not black comes back black. -/
theorem C46_violated (w : World) (c : Color) (x z : ℝ) (h : IsXyz c x 0 z) (hxz : x ≠ 0 ∨ z ≠ 0) :
    Trip w c .xyy .xyz { c with comps := [fin 0, fin 0, fin 0] } ∧ ¬ Trip w c .xyy .xyz c := by
  obtain ⟨-, -, x0, x1, y0, y1, z0, z1⟩ := id h
  have hS : 0 < x + 0 + z := by
    rcases hxz with hh | hh
    · have := lt_of_le_of_ne x0 (Ne.symm hh); linarith
    · have := lt_of_le_of_ne z0 (Ne.symm hh); linarith
  have he := h.eq
  have ht : Trip w c .xyy .xyz { c with comps := [fin 0, fin 0, fin 0] } := by
    refine trip_of (s := .xyz) (d := obj .xyy (x / (x + 0 + z)) 0 0 c.malpha c.space) (by decide) (by decide) (by decide) h.col ?_ ?_
    · change Leaf.xyz_to_xyy w c = _
      rw [he]
      simp only [Leaf.xyz_to_xyy, obj_0, obj_1, obj_2, obj_space, obj_malpha, obj_alpha _ _ _ _ _ _ (rfl : Color.scalesAlpha .xyz = false), ok_bind, zero_def, feq_fin,
        true_and, add_exact, Color.construct_xyy]
      rw [if_neg (by rintro ⟨h1, h2⟩; exact hxz.elim (fun h => h h1) (fun h => h h2)), div_exact _ _ hS.ne', div_exact _ _ hS.ne', zero_div]
      have : x / (x + 0 + z) ≤ 1 := by rw [div_le_one hS]; linarith
      rw [mkXyz_obj _ ⟨rfl, rfl⟩ _ _ (by positivity) (by linarith) le_rfl (by norm_num) le_rfl (by norm_num)]
    · change Leaf.xyy_to_xyz _ = _
      simp only [Leaf.xyy_to_xyz, obj_0, obj_1, obj_2, obj_space, obj_malpha, obj_alpha _ _ _ _ _ _ (rfl : Color.scalesAlpha .xyy = false), ok_bind, zero_def, feq_fin,
        if_true, Color.construct_xyz]
      rw [mkXyz_obj _ ⟨rfl, rfl⟩ _ _ le_rfl (by norm_num) le_rfl (by norm_num) le_rfl (by norm_num)]
      generalize hc' : ({ c with comps := [fin 0, fin 0, fin 0] } : Color) = c'
      rw [he] at hc'
      exact congrArg ok hc'
  refine ⟨ht, fun hh => ?_⟩
  have e := congrArg Color.comps (hh.unique ht)
  rw [h.comps] at e
  simp only [List.cons.injEq, fin.injEq, and_true, true_and] at e
  exact hxz.elim (fun h => h e.1) (fun h => h e.2)

example (w : World) : Trip w (obj .xyz 20 30 40 1 none) .xyy .xyz (obj .xyz 20 30 40 1 none) :=
  C46_xyy_partial w _ 20 30 40 ⟨⟨rfl, rfl, rfl, rfl, rfl⟩, rfl, by norm_num, by norm_num, by norm_num, by norm_num, by norm_num, by norm_num⟩ (by norm_num)
example (w : World) : ¬ Trip w (obj .xyz 50 0 0 1 none) .xyy .xyz (obj .xyz 50 0 0 1 none) :=
  (C46_violated w _ 50 0 ⟨⟨rfl, rfl, rfl, rfl, rfl⟩, rfl, by norm_num, by norm_num, by norm_num, by norm_num, by norm_num, by norm_num⟩ (by norm_num)).2
example [StdSort] : ∃ w : World, Trip w (obj .xyz 0 0 0 1 (some 0)) .xyy .xyz (obj .xyz 0 0 0 1 (some 0)) := by
  obtain ⟨w, -, -, hw, -⟩ := exists_world .sRGB .g2_2
  exact ⟨w, C46_black_partial w _ ⟨⟨rfl, rfl, rfl, rfl, rfl⟩, rfl, by norm_num, by norm_num, by norm_num, by norm_num, by norm_num, by norm_num⟩ 0 0 rfl hw⟩

/-! ## C47 XYZ and LAB -/

theorem xyzToLab_eq {t : ℝ} (ht : 0 ≤ t) : Leaf.xyzToLab (fin t) = fin (labF t) := by
  simp only [Leaf.xyzToLab, lit_def, one_def]
  rw [div_exact _ _ (by norm_num), div_exact _ _ (by norm_num), div_exact _ _ (by norm_num)]
  simp only [fin_lt, mul_exact, add_exact]
  rw [div_exact _ _ (by norm_num)]
  unfold labF
  rw [show ((6 : ℝ) / 29) ^ 3 = 216 / 24389 by norm_num]
  split
  · rename_i h
    rw [ExactModel.powf_eq _ _ (Or.inl (lt_trans (by norm_num) h))]
  · congr 1; ring

omit [FloatModel] [ExactModel] in
/-- Above the knee `f` is above 6/29, below it lies between 4/29 and 6/29. -/
theorem labF_cases {t : ℝ} (ht : 0 ≤ t) : (6 / 29 < labF t ∧ labF t ^ 3 = t ∧ (6 / 29) ^ 3 < t) ∨
    (4 / 29 ≤ labF t ∧ labF t ≤ 6 / 29 ∧ labF t = 841 / 108 * t + 4 / 29) := by
  unfold labF
  split
  · rename_i h
    left
    have h3 : (t ^ (1 / 3 : ℝ)) ^ 3 = t := by
      rw [← Real.rpow_natCast, ← Real.rpow_mul ht]; norm_num
    refine ⟨?_, h3, h⟩
    by_contra hh
    push Not at hh
    have : (t ^ (1 / 3 : ℝ)) ^ 3 ≤ (6 / 29) ^ 3 := pow_le_pow_left₀ (Real.rpow_nonneg ht _) hh 3
    rw [h3] at this
    linarith
  · rename_i h
    right
    push Not at h
    refine ⟨by linarith, ?_, rfl⟩
    have : (841 : ℝ) / 108 * t ≤ 841 / 108 * (6 / 29) ^ 3 := by gcongr
    norm_num at this ⊢
    linarith

theorem labToXZ_eq {t : ℝ} (ht : 0 ≤ t) : Leaf.labToXZ (fin (labF t)) = fin t := by
  have hpos : 0 < labF t := by rcases labF_cases ht with h | h <;> linarith [h.1]
  simp only [Leaf.labToXZ, lit_def]
  rw [div_exact _ _ (by norm_num), div_exact _ _ (by norm_num), ExactModel.powf_eq _ _ (Or.inl hpos)]
  simp only [fin_lt, mul_exact, sub_exact]
  rw [div_exact _ _ (by norm_num), show labF t ^ (3 : ℝ) = labF t ^ 3 by rw [← Real.rpow_natCast]; norm_num]
  rcases labF_cases ht with ⟨h1, h2, h3⟩ | ⟨h1, h2, h3⟩
  · rw [h2, if_pos (by norm_num at h3; linarith)]
  · have : labF t ^ 3 ≤ (6 / 29) ^ 3 := pow_le_pow_left₀ hpos.le h2 3
    rw [if_neg (by norm_num at this ⊢; linarith), h3]
    congr 1; ring

theorem labToY_eq {t : ℝ} (ht : 0 ≤ t) : Leaf.labToY (fin (116 * labF t - 16)) = fin t := by
  simp only [Leaf.labToY, lit_def]
  rw [div_exact _ _ (by norm_num), div_exact _ _ (by norm_num)]
  simp only [fin_lt, mul_exact, add_exact]
  rw [div_exact _ _ (by norm_num), div_exact _ _ (by norm_num), show (116 * labF t - 16 + 16) / 116 = labF t by ring]
  rcases labF_cases ht with ⟨h1, h2, h3⟩ | ⟨h1, h2, h3⟩
  · rw [if_pos (by norm_num; linarith), ExactModel.powf_eq _ _ (Or.inl (by linarith)), show labF t ^ (3 : ℝ) = labF t ^ 3 by rw [← Real.rpow_natCast]; norm_num, h2]
  · rw [if_neg (by norm_num; linarith), h3]
    congr 1; ring

/-- The two conversions of C47 at the level of values. -/
theorem lab_vals (w : World) (c : Color) (x y z : ℝ) (h : IsXyz c x y z) (wx wy wz : ℝ) (hw : HasWhite w c.space wx wy wz)
    (px : 0 < wx) (py : 0 < wy) (pz : 0 < wz) (a : ℝ) (ha : c.malpha = fin a) (a0 : 0 ≤ a) (a1 : a ≤ 1)
    (hL : 116 * labF (y / wy) - 16 ≤ 100) (hA : |500 * (labF (x / wx) - labF (y / wy))| ≤ 128) (hB : |200 * (labF (y / wy) - labF (z / wz))| ≤ 128) :
    Leaf.xyz_to_lab w c = ok (obj .lab (116 * labF (y / wy) - 16) (500 * (labF (x / wx) - labF (y / wy))) (200 * (labF (y / wy) - labF (z / wz))) (fin a) c.space) ∧
      Leaf.lab_to_xyz w (obj .lab (116 * labF (y / wy) - 16) (500 * (labF (x / wx) - labF (y / wy))) (200 * (labF (y / wy) - labF (z / wz))) (fin a) c.space) = ok c := by
  obtain ⟨-, -, x0, x1, y0, y1, z0, z1⟩ := id h
  obtain ⟨s, q, hs, hq, ht⟩ := hw
  have he := h.eq
  rw [ha] at he
  have X0 : 0 ≤ x / wx := by positivity
  have Y0 : 0 ≤ y / wy := by positivity
  have Z0 : 0 ≤ z / wz := by positivity
  have hal : Color.clamp (fin a) 1 0 = fin a := clamp01 a0 a1
  have hL0 : 0 ≤ 116 * labF (y / wy) - 16 := by rcases labF_cases Y0 with hh | hh <;> linarith [hh.1]
  have cl : Color.clamp (fin (116 * labF (y / wy) - 16)) 100 0 = fin (116 * labF (y / wy) - 16) := clamp100 hL0 hL
  have c128 : ∀ v : ℝ, |v| ≤ 128 → Color.clamp (fin v) 128 (-128) = fin v := by
    intro v hv
    rw [abs_le] at hv
    have : (-128 : Fl) = fin (-128) := by simp
    rw [this]
    simp [Color.clamp_fin, hv.1, hv.2]
  refine ⟨?_, ?_⟩
  · have hsp : c.space = some s := hs
    rw [he]
    simp only [Leaf.xyz_to_lab, obj_0, obj_1, obj_2, obj_space, obj_malpha, obj_alpha _ _ _ _ _ _ (rfl : Color.scalesAlpha .xyz = false), ok_bind, hsp, World.space, World.white, hq, ht,
      Color.construct_lab]
    rw [div_exact _ _ px.ne', div_exact _ _ py.ne', div_exact _ _ pz.ne', xyzToLab_eq X0, xyzToLab_eq Y0, xyzToLab_eq Z0]
    simp only [lit_def, mul_exact, sub_exact, Color.mkLab, Color.setAlpha, Color.scalesAlpha, Bool.false_eq_true, if_false, hal]
    have e1 := c128 _ hA
    have e2 := c128 _ hB
    simp only [lit_def] at cl e1 e2
    rw [cl, e1, e2]
    simp [obj, Color.maxOf, Color.minOf]
  · have hsp : c.space = some s := hs
    simp only [Leaf.lab_to_xyz, obj_0, obj_1, obj_2, obj_space, obj_malpha, obj_alpha _ _ _ _ _ _ (rfl : Color.scalesAlpha .lab = false), ok_bind, hsp, World.space, World.white, hq, ht,
      Color.construct_xyz, labToY_eq Y0]
    simp only [lit_def, add_exact]
    rw [div_exact _ 116 (by norm_num), div_exact _ 500 (by norm_num), div_exact _ 200 (by norm_num)]
    simp only [add_exact, sub_exact]
    rw [show 500 * (labF (x / wx) - labF (y / wy)) / 500 + (116 * labF (y / wy) - 16 + 16) / 116 = labF (x / wx) by ring,
      show (116 * labF (y / wy) - 16 + 16) / 116 - 200 * (labF (y / wy) - labF (z / wz)) / 200 = labF (z / wz) by ring, labToXZ_eq X0, labToXZ_eq Z0]
    simp only [mul_exact]
    rw [div_mul_cancel₀ _ px.ne', div_mul_cancel₀ _ py.ne', div_mul_cancel₀ _ pz.ne', mkXyz_obj _ ⟨rfl, rfl⟩ _ _ x0 x1 y0 y1 z0 z1]
    simp only [Color.setAlpha, obj, Color.scalesAlpha, Bool.false_eq_true, if_false, hal]
    rw [he, hsp]; rfl

/-- **C47** XYZ → LAB → XYZ is the identity for every white point with positive tristimulus values and every colour whose LAB values are within the limits
of the LAB class. -/
theorem C47_lab (w : World) (c : Color) (x y z : ℝ) (h : IsXyz c x y z) (wx wy wz : ℝ) (hw : HasWhite w c.space wx wy wz)
    (px : 0 < wx) (py : 0 < wy) (pz : 0 < wz) (a : ℝ) (ha : c.malpha = fin a) (a0 : 0 ≤ a) (a1 : a ≤ 1)
    (hL : 116 * labF (y / wy) - 16 ≤ 100) (hA : |500 * (labF (x / wx) - labF (y / wy))| ≤ 128) (hB : |200 * (labF (y / wy) - labF (z / wz))| ≤ 128) :
    Trip w c .lab .xyz c := by
  obtain ⟨h1, h2⟩ := lab_vals w c x y z h wx wy wz hw px py pz a ha a0 a1 hL hA hB
  exact trip_of (s := .xyz) (by decide) (by decide) (by decide) h.col h1 h2

/-- Case: a colour as bright as half the white point. -/
example [StdSort] : ∃ w : World, Trip w (obj .xyz 0.9504 1 1.0888 1 (some 0)) .lab .xyz (obj .xyz 0.9504 1 1.0888 1 (some 0)) := by
  obtain ⟨w, -, -, hw, hq, -⟩ := exists_world .sRGB .g2_2
  refine ⟨w, C47_lab w _ 0.9504 1 1.0888 ⟨⟨rfl, rfl, rfl, rfl, rfl⟩, rfl, by norm_num, by norm_num, by norm_num, by norm_num, by norm_num, by norm_num⟩ 0.9504 1 1.0888
    ⟨0, 0, rfl, hw, ?_⟩ (by norm_num) (by norm_num) (by norm_num) 1 (by simp [obj]) (by norm_num) (by norm_num) ?_ ?_ ?_⟩
  · rw [hq]; simp [WhitePreset.create, WhitePoint.make, SpacePreset.white, WhitePreset.literals]
  all_goals norm_num [labF]


/-! ## C48 RGB and XYZ -/

theorem applyGamma_unit (g : Fl → Fl) {r gg b r' g' b' : ℝ} (e1 : g (fin r) = fin r') (e2 : g (fin gg) = fin g') (e3 : g (fin b) = fin b')
    (h1 : 0 ≤ r' ∧ r' ≤ 1) (h2 : 0 ≤ g' ∧ g' ≤ 1) (h3 : 0 ≤ b' ∧ b' ≤ 1) (al : Fl) (sp : Option Nat) :
    (obj .rgbDeep r gg b al sp).applyGamma g = obj .rgbDeep r' g' b' al sp := by
  simp only [Color.applyGamma, obj, List.map, e1, e2, e3, Color.maxOf, Color.minOf, clamp01 h1.1 h1.2, clamp01 h2.1 h2.2, clamp01 h3.1 h3.2]

theorem clampFloat_unit {x : ℝ} (h0 : 0 ≤ x) (h1 : x ≤ 1) : Leaf.clampFloat (fin x) 0 1 = fin x := by
  simp [Leaf.clampFloat, h0, h1]

/-- XYZ → RGB_DEEP when the linear channels are in range. -/
theorem back_linear (w : World) (s m : Nat) (hm : (w.spaces s).gamma = some m) (al : Fl) {x y z lr lg lb r g b : ℝ}
    (hI : (w.spaces s).inverse.mulVec [fin x, fin y, fin z] = ok [fin lr, fin lg, fin lb]) (h1 : 0 ≤ lr ∧ lr ≤ 1) (h2 : 0 ≤ lg ∧ lg ≤ 1) (h3 : 0 ≤ lb ∧ lb ≤ 1)
    (e1 : (w.gammas m).correct w.parts (fin lr) = fin r) (e2 : (w.gammas m).correct w.parts (fin lg) = fin g) (e3 : (w.gammas m).correct w.parts (fin lb) = fin b)
    (r1 : 0 ≤ r ∧ r ≤ 1) (r2 : 0 ≤ g ∧ g ≤ 1) (r3 : 0 ≤ b ∧ b ≤ 1) :
    Leaf.xyz_to_rgb_deep w (obj .xyz x y z al (some s)) = ok (obj .rgbDeep r g b al (some s)) := by
  simp only [Leaf.xyz_to_rgb_deep, obj_space, World.space, ok_bind]
  rw [show (obj .xyz x y z al (some s)).comps = [fin x, fin y, fin z] from rfl, hI]
  simp only [ok_bind, Mat.vget, List.getElem?_cons_zero, List.getElem?_cons_succ, obj_alpha _ _ _ _ _ _ (rfl : Color.scalesAlpha .xyz = false), Color.construct_rgbDeep]
  rw [mkRgb_obj _ _ h1.1 h1.2 h2.1 h2.2 h3.1 h3.2]
  obtain ⟨s1, s2, s3⟩ : (obj .rgbDeep lr lg lb al (some s)).setChannel 0 (fin lr) = ok (obj .rgbDeep lr lg lb al (some s)) ∧
      (obj .rgbDeep lr lg lb al (some s)).setChannel 1 (fin lg) = ok (obj .rgbDeep lr lg lb al (some s)) ∧
      (obj .rgbDeep lr lg lb al (some s)).setChannel 2 (fin lb) = ok (obj .rgbDeep lr lg lb al (some s)) := by
    simp [obj, Color.setChannel, Color.setComponent, Color.setComponentLim, Color.maxOf, Color.minOf, Color.clamp_fin, h1, h2, h3]
  simp only [obj_0, obj_1, obj_2, ok_bind, clampFloat_unit h1.1 h1.2, clampFloat_unit h2.1 h2.2, clampFloat_unit h3.1 h3.2, s1, s2, s3]
  simp only [Leaf.forwardGamma, obj_space, World.space, ok_bind, World.gamma, hm]
  rw [applyGamma_unit _ e1 e2 e3 r1 r2 r3]

/-- The two conversions of C48 at the level of values. -/
theorem rgb_xyz_forms (w : World) (c : Color) (r g b : ℝ) (h : IsRgb c r g b) (s m : Nat) (hs : c.space = some s) (hm : (w.spaces s).gamma = some m)
    (P : Matrix (Fin 3) (Fin 3) ℝ) (u k : Fin 3 → ℝ) (hreach : SpaceReach w.whites (w.spaces s)) (hr : SpaceDef.Regular w.whites (w.spaces s) P u)
    (hP : ∀ i j, 0 ≤ P i j) (hk : P.mulVec k = u) (hk0 : ∀ i, 0 < k i) (hu : ∀ i, u i ≤ 100)
    (hg : ∀ v ∈ [r, g, b], ∃ l, 0 ≤ l ∧ l ≤ 1 ∧ (w.gammas m).inverse w.parts (fin v) = fin l ∧ (w.gammas m).correct w.parts (fin l) = fin v) :
    ∃ l : Fin 3 → ℝ, (∀ i, 0 ≤ l i ∧ l i ≤ 1) ∧ ((w.gammas m).inverse w.parts (fin r) = fin (l 0) ∧ (w.gammas m).inverse w.parts (fin g) = fin (l 1) ∧
      (w.gammas m).inverse w.parts (fin b) = fin (l 2)) ∧ ∃ X : Fin 3 → ℝ, (∀ i, X i = P i 0 * k 0 * l 0 + P i 1 * k 1 * l 1 + P i 2 * k 2 * l 2) ∧ (∀ i, 0 ≤ X i ∧ X i ≤ 100) ∧
      Val.rgb_deep_to_xyz w c = ok (obj .xyz (X 0) (X 1) (X 2) c.malpha c.space) ∧ Leaf.xyz_to_rgb_deep w (obj .xyz (X 0) (X 1) (X 2) c.malpha c.space) = ok c := by
  obtain ⟨-, -, r0, r1, g0, g1, b0, b1⟩ := id h
  have he := rgb_eq h
  obtain ⟨lr, lr0, lr1, er, er'⟩ := hg r (by simp)
  obtain ⟨lg, lg0, lg1, eg, eg'⟩ := hg g (by simp)
  obtain ⟨lb, lb0, lb1, eb, eb'⟩ := hg b (by simp)
  have hkw : P⁻¹.mulVec u = k := by
    rw [← hk, Matrix.mulVec_mulVec, Matrix.nonsing_inv_mul _ (isUnit_iff_ne_zero.mpr hr.det), Matrix.one_mulVec]
  have hT := Mat.mulVec_three (f := fin) Mat.emb_fin (SpaceDef.idealMat P u) ![lr, lg, lb]
  rw [← (space_inv _ _ hreach P u hr).1] at hT
  have hval : ∀ i, (SpaceDef.idealMat P u).mulVec ![lr, lg, lb] i = P i 0 * k 0 * lr + P i 1 * k 1 * lg + P i 2 * k 2 * lb := by
    intro i
    rw [SpaceDef.idealMat, hkw]
    simp [Matrix.mulVec, dotProduct, Fin.sum_univ_three, Matrix.mul_diagonal]
  have hlow : ∀ i, 0 ≤ (SpaceDef.idealMat P u).mulVec ![lr, lg, lb] i := by
    intro i
    rw [hval]
    have := hP i 0; have := hP i 1; have := hP i 2
    have := (hk0 0).le; have := (hk0 1).le; have := (hk0 2).le
    positivity
  have hhigh : ∀ i, (SpaceDef.idealMat P u).mulVec ![lr, lg, lb] i ≤ 100 := by
    intro i
    rw [hval]
    refine le_trans ?_ (hu i)
    rw [← hk]
    simp only [Matrix.mulVec, dotProduct, Fin.sum_univ_three]
    have := mul_nonneg (hP i 0) (hk0 0).le
    have := mul_nonneg (hP i 1) (hk0 1).le
    have := mul_nonneg (hP i 2) (hk0 2).le
    nlinarith
  have hI := ((C32_inverse _ _ hreach P u k hr hk (fun i => (hk0 i).ne')).2 lr lg lb).1
  have hT' : (w.spaces s).transform.mulVec [fin lr, fin lg, fin lb] = ok [fin ((SpaceDef.idealMat P u).mulVec ![lr, lg, lb] 0),
      fin ((SpaceDef.idealMat P u).mulVec ![lr, lg, lb] 1), fin ((SpaceDef.idealMat P u).mulVec ![lr, lg, lb] 2)] := hT
  rw [hT', ok_bind] at hI
  generalize hX : (SpaceDef.idealMat P u).mulVec ![lr, lg, lb] = X at *
  refine ⟨![lr, lg, lb], ?_, ⟨er, eg, eb⟩, X, hval, fun i => ⟨hlow i, hhigh i⟩, ?_, ?_⟩
  · intro i; fin_cases i <;> exact ⟨by assumption, by assumption⟩
  · generalize hal : c.malpha = al at he ⊢
    rw [he]
    simp only [Val.rgb_deep_to_xyz, Leaf.inverseGamma, obj_space, World.space, hs, ok_bind, World.gamma, hm]
    rw [applyGamma_unit _ er eg eb ⟨lr0, lr1⟩ ⟨lg0, lg1⟩ ⟨lb0, lb1⟩]
    simp only [Leaf.linear_to_xyz, obj_space, World.space, ok_bind]
    rw [show (obj .rgbDeep lr lg lb al (some s)).comps = [fin lr, fin lg, fin lb] from rfl, hT']
    simp only [ok_bind, Mat.vget, List.getElem?_cons_zero, List.getElem?_cons_succ, obj_alpha _ _ _ _ _ _ (rfl : Color.scalesAlpha .rgbDeep = false), Color.construct_xyz]
    rw [mkXyz_obj _ ⟨rfl, rfl⟩ _ _ (hlow 0) (hhigh 0) (hlow 1) (hhigh 1) (hlow 2) (hhigh 2)]
  · rw [hs]
    rw [back_linear w s m hm _ hI ⟨lr0, lr1⟩ ⟨lg0, lg1⟩ ⟨lb0, lb1⟩ er' eg' eb' ⟨r0, r1⟩ ⟨g0, g1⟩ ⟨b0, b1⟩, ← hs, ← he]

theorem rgb_xyz_vals (w : World) (c : Color) (r g b : ℝ) (h : IsRgb c r g b) (s m : Nat) (hs : c.space = some s) (hm : (w.spaces s).gamma = some m)
    (P : Matrix (Fin 3) (Fin 3) ℝ) (u k : Fin 3 → ℝ) (hreach : SpaceReach w.whites (w.spaces s)) (hr : SpaceDef.Regular w.whites (w.spaces s) P u)
    (hP : ∀ i j, 0 ≤ P i j) (hk : P.mulVec k = u) (hk0 : ∀ i, 0 < k i) (hu : ∀ i, u i ≤ 100)
    (hg : ∀ v ∈ [r, g, b], ∃ l, 0 ≤ l ∧ l ≤ 1 ∧ (w.gammas m).inverse w.parts (fin v) = fin l ∧ (w.gammas m).correct w.parts (fin l) = fin v) :
    ∃ d, Val.rgb_deep_to_xyz w c = ok d ∧ Leaf.xyz_to_rgb_deep w d = ok c := by
  obtain ⟨_, _, _, _, _, _, h1, h2⟩ := rgb_xyz_forms w c r g b h s m hs hm P u k hreach hr hP hk hk0 hu hg
  exact ⟨_, h1, h2⟩

/-- **C48 (partial)** RGB_DEEP → XYZ → RGB_DEEP is the identity in every colour space whose primaries have non-negative chromaticities and positive weights
(`P k` = white point `u`, at most 100), for every colour whose channels survive the gamma curves. -/
theorem C48_xyz_partial (w : World) (c : Color) (r g b : ℝ) (h : IsRgb c r g b) (s m : Nat) (hs : c.space = some s) (hm : (w.spaces s).gamma = some m)
    (P : Matrix (Fin 3) (Fin 3) ℝ) (u k : Fin 3 → ℝ) (hreach : SpaceReach w.whites (w.spaces s)) (hr : SpaceDef.Regular w.whites (w.spaces s) P u)
    (hP : ∀ i j, 0 ≤ P i j) (hk : P.mulVec k = u) (hk0 : ∀ i, 0 < k i) (hu : ∀ i, u i ≤ 100)
    (hg : ∀ v ∈ [r, g, b], ∃ l, 0 ≤ l ∧ l ≤ 1 ∧ (w.gammas m).inverse w.parts (fin v) = fin l ∧ (w.gammas m).correct w.parts (fin l) = fin v) :
    Trip w c .xyz .rgbDeep c := by
  obtain ⟨d, h1, h2⟩ := rgb_xyz_vals w c r g b h s m hs hm P u k hreach hr hP hk hk0 hu hg
  exact trip_of (s := .rgbDeep) (by decide) (by decide) (by decide) h.col h1 h2

omit [FloatModel] [ExactModel] in
/-- The chromaticities of the primaries of all presets are non-negative. -/
theorem preset_nonneg (p : SpacePreset) (i j : Fin 3) : 0 ≤ presetPrimaries p i j := by
  cases p <;> fin_cases i <;> fin_cases j <;> simp [presetPrimaries, ccMat, SpacePreset.primaries] <;> norm_num

omit [FloatModel] [ExactModel] in
theorem preset_white_le (p : SpacePreset) (i : Fin 3) : presetWhite p i ≤ 100 := by
  cases p <;> fin_cases i <;> simp [presetWhite, SpacePreset.white, WhitePreset.literals] <;> norm_num

/-- A channel value that the two curves of a gamma preset return to itself: every value for the five power curves, the values outside the gap at the knee for the
other three (C28). -/
def ConvSpec.Curved (gp : GammaPreset) (v : ℝ) : Prop :=
  match gp with
  | .sRGB => v ≤ 0.040449936 ∨ 0.04045 < v
  | .romm => v ≤ 0.001953 ∨ 0.03125 ≤ v
  | .uhdtv => v ≤ 0.018 ∨ 0.018053968510807 < v
  | _ => True

theorem curved_trip [StdSort] (gp : GammaPreset) {v : ℝ} (v0 : 0 ≤ v) (v1 : v ≤ 1) (hc : Curved gp v) :
    ∃ l, 0 ≤ l ∧ l ≤ 1 ∧ GammaPreset.evalParts gp.invParts (fin v) = fin l ∧ GammaPreset.evalParts gp.parts (fin l) = fin v := by
  obtain ⟨g, hg, he⟩ := preset_curves gp (fun _ => ⟨none, 1⟩) 0
  obtain ⟨g', hg', -, -, -, hu⟩ := C29_ends gp (fun _ => ⟨none, 1⟩) 0
  rw [hg, ok_inj] at hg'
  subst hg'
  obtain ⟨l, hl, l0, l1⟩ := hu v v0 v1
  have hback : g.correct (gp.create (fun _ => ⟨none, 1⟩) 0).1 (g.inverse (gp.create (fun _ => ⟨none, 1⟩) 0).1 (fin v)) = fin v := by
    have fin_of : ∀ {Q : Prop}, (∃ g', (gp.create (fun _ => ⟨none, 1⟩) 0).2 = ok g' ∧ (g' = g → Q)) → Q := by
      rintro Q ⟨g', h1, h2⟩
      rw [hg, ok_inj] at h1
      exact h2 h1.symm
    by_cases hP : gp.IsPower
    · obtain ⟨g', h1, h2⟩ := C28_power gp hP (fun _ => ⟨none, 1⟩) 0
      exact fin_of ⟨g', h1, fun e => e ▸ (h2 v v0 v1).2⟩
    · cases gp <;> simp [GammaPreset.IsPower] at hP
      · obtain ⟨g', h1, h2⟩ := C28_sRGB_partial (fun _ => ⟨none, 1⟩) 0
        exact fin_of ⟨g', h1, fun e => e ▸ (h2 v v0 v1).2 hc⟩
      · obtain ⟨g', h1, h2⟩ := C28_romm_partial (fun _ => ⟨none, 1⟩) 0
        exact fin_of ⟨g', h1, fun e => e ▸ (h2 v v0 v1).2 hc⟩
      · obtain ⟨g', h1, h2⟩ := C28_uhdtv_partial (fun _ => ⟨none, 1⟩) 0
        exact fin_of ⟨g', h1, fun e => e ▸ (h2 v v0 v1).2 hc⟩
  rw [(he _).2] at hl hback
  rw [(he _).1, hl] at hback
  exact ⟨l, l0, l1, hl, hback⟩

/-- What the preset theorems have in common. -/
theorem preset_vals [StdSort] (p : SpacePreset) (hp : p ≠ .cieRGB) (gp : GammaPreset) (w : World) (hm : (w.spaces 0).gamma = some 0)
    (hreach : SpaceReach w.whites (w.spaces 0)) (hr : SpaceDef.Regular w.whites (w.spaces 0) (presetPrimaries p) (presetWhite p))
    (he : ∀ x, (w.gammas 0).correct w.parts x = GammaPreset.evalParts gp.parts x ∧ (w.gammas 0).inverse w.parts x = GammaPreset.evalParts gp.invParts x)
    (c : Color) (r g b : ℝ) (h : IsRgb c r g b) (hs : c.space = some 0) (cr : Curved gp r) (cg : Curved gp g) (cb : Curved gp b) :
    ∃ d, Val.rgb_deep_to_xyz w c = ok d ∧ Leaf.xyz_to_rgb_deep w d = ok c := by
  have hd := preset_det p
  have hv := (preset_weights p).2 hp
  refine rgb_xyz_vals w c r g b h 0 0 hs hm _ _ _ hreach hr (preset_nonneg p) (weights_cramer _ _ hd.ne') (fun i => div_pos (hv i) hd) (preset_white_le p) ?_
  have key : ∀ v : ℝ, 0 ≤ v → v ≤ 1 → Curved gp v → ∃ l, 0 ≤ l ∧ l ≤ 1 ∧ (w.gammas 0).inverse w.parts (fin v) = fin l ∧ (w.gammas 0).correct w.parts (fin l) = fin v := by
    intro v v0 v1 cv
    obtain ⟨l, l0, l1, h1, h2⟩ := curved_trip gp v0 v1 cv
    exact ⟨l, l0, l1, by rw [(he _).2, h1], by rw [(he _).1, h2]⟩
  intro v hv
  simp only [List.mem_cons, List.not_mem_nil, or_false] at hv
  rcases hv with rfl | rfl | rfl
  · exact key _ h.r0 h.r1 cr
  · exact key _ h.g0 h.g1 cg
  · exact key _ h.b0 h.b1 cb

/-- **C48 (partial)** The identity holds in every preset colour space but cieRGB, with every gamma preset, for every colour whose channels are outside the gap at the
knee of the gamma curve.  Missing: cieRGB (false, see `C48_violated`) and the gaps (C28). -/
theorem C48_presets_partial [StdSort] (p : SpacePreset) (hp : p ≠ .cieRGB) (gp : GammaPreset) :
    ∃ w : World, w.Usable (some 0) ∧ SpaceDef.Regular w.whites (w.spaces 0) (presetPrimaries p) (presetWhite p) ∧
      (∀ x, (w.gammas 0).correct w.parts x = GammaPreset.evalParts gp.parts x ∧ (w.gammas 0).inverse w.parts x = GammaPreset.evalParts gp.invParts x) ∧
      ∀ (c : Color) (r g b : ℝ), IsRgb c r g b → c.space = some 0 → Curved gp r → Curved gp g → Curved gp b → Trip w c .xyz .rgbDeep c := by
  obtain ⟨w, hw, hm, -, -, hreach, hr, he⟩ := exists_world p gp
  refine ⟨w, hw, hr, he, fun c r g b h hs cr cg cb => ?_⟩
  obtain ⟨d, h1, h2⟩ := preset_vals p hp gp w hm hreach hr he c r g b h hs cr cg cb
  exact trip_of (s := .rgbDeep) (by decide) (by decide) (by decide) h.col h1 h2

omit [FloatModel] [ExactModel] in
/-- No multiple of 1/255 lies in the gap of a gamma preset other than ROMM. -/
theorem byte_curved (gp : GammaPreset) (hg : gp ≠ .romm) (n : ℕ) : Curved gp (n / 255) := by
  have key : ∀ a b : ℝ, (∃ k : ℕ, (k : ℝ) / 255 ≤ a ∧ b < (k + 1 : ℝ) / 255) → ((n : ℝ) / 255 ≤ a ∨ b < (n : ℝ) / 255) := by
    rintro a b ⟨k, h1, h2⟩
    rcases Nat.lt_or_ge k n with h | h
    · right
      have : (k + 1 : ℝ) ≤ n := by exact_mod_cast h
      linarith
    · left
      have : (n : ℝ) ≤ k := by exact_mod_cast h
      linarith
  cases gp
  case sRGB => exact key _ _ ⟨10, by norm_num, by norm_num⟩
  case uhdtv => exact key _ _ ⟨4, by norm_num, by norm_num⟩
  case romm => exact absurd rfl hg
  all_goals trivial

/-- **C48 (partial)** For every RGB_TRUE colour with integer channels and opacity, RGB_TRUE → XYZ → RGB_TRUE is the identity in every preset colour space but cieRGB with every
gamma preset but ROMM. -/
theorem C48_true_partial [StdSort] (p : SpacePreset) (hp : p ≠ .cieRGB) (gp : GammaPreset) (hgp : gp ≠ .romm) :
    ∃ w : World, w.Usable (some 0) ∧ SpaceDef.Regular w.whites (w.spaces 0) (presetPrimaries p) (presetWhite p) ∧
      (∀ x, (w.gammas 0).correct w.parts x = GammaPreset.evalParts gp.parts x ∧ (w.gammas 0).inverse w.parts x = GammaPreset.evalParts gp.invParts x) ∧
      ∀ (R G B A : ℕ) (c : Color), R ≤ 255 → G ≤ 255 → B ≤ 255 → A ≤ 255 → Color.construct .rgbTrue [fin R, fin G, fin B] (fin A) (some 0) = ok c →
        Trip w c .xyz .rgbTrue c := by
  obtain ⟨w, hw, hm, -, -, hreach, hr, he⟩ := exists_world p gp
  refine ⟨w, hw, hr, he, fun R G B A c hR hG hB hA hc => ?_⟩
  obtain ⟨al, v1, v2⟩ := true_deep_vals R G B A hR hG hB hA (some 0) c hc
  have unit : ∀ n : ℕ, n ≤ 255 → (0 : ℝ) ≤ n / 255 ∧ (n : ℝ) / 255 ≤ 1 := by
    intro n hn
    have : (n : ℝ) ≤ 255 := by exact_mod_cast hn
    exact ⟨by positivity, by linarith⟩
  have hdeep : Color.mkRgbDeep (fin R / 255) (fin G / 255) (fin B / 255) al (some 0) = rgbOf (R / 255) (G / 255) (B / 255) al (some 0) := by
    have e : ∀ n : ℕ, (fin n : Fl) / 255 = fin (n / 255) := by
      intro n; rw [show (255 : Fl) = fin 255 by simp, div_exact _ _ (by norm_num)]
    simp only [e]
    exact mkRgb_obj _ _ (unit R hR).1 (unit R hR).2 (unit G hG).1 (unit G hG).2 (unit B hB).1 (unit B hB).2
  rw [hdeep] at v1 v2
  obtain ⟨d, h1, h2⟩ := preset_vals p hp gp w hm hreach hr he _ (R / 255) (G / 255) (B / 255)
    (isRgb_rgbOf al (some 0) ⟨(unit R hR).1, (unit R hR).2, (unit G hG).1, (unit G hG).2, (unit B hB).1, (unit B hB).2⟩) rfl
    (byte_curved gp hgp R) (byte_curved gp hgp G) (byte_curved gp hgp B)
  refine trip_of (s := .rgbTrue) (d := d) (by decide) (by decide) (by decide) ?_ ?_ ?_
  · rw [Color.construct_rgbTrue, ok_inj] at hc
    subst hc
    exact ⟨rfl, rfl, rfl, rfl, rfl⟩
  · change Leaf.rgb_true_to_rgb_deep c >>= Val.rgb_deep_to_xyz w = _
    rw [v1, ok_bind, h1]
  · change Leaf.xyz_to_rgb_deep w d >>= Leaf.rgb_deep_to_rgb_true = _
    rw [h2, ok_bind, v2]

example [StdSort] : ∃ w : World, w.Usable (some 0) ∧ Trip w (rgbOf 0.2 0.5 0.9 1 (some 0)) .xyz .rgbDeep (rgbOf 0.2 0.5 0.9 1 (some 0)) := by
  obtain ⟨w, hw, -, -, h⟩ := C48_presets_partial .sRGB (by simp) .sRGB
  exact ⟨w, hw, h _ 0.2 0.5 0.9 (isRgb_rgbOf _ _ (by norm_num)) rfl
    (by norm_num [Curved]) (by norm_num [Curved]) (by norm_num [Curved])⟩

/-- **C48 violated** In cieRGB, with any gamma preset, red comes back black. -/
theorem C48_violated [StdSort] (gp : GammaPreset) : ∃ w : World, w.Usable (some 0) ∧
    SpaceDef.Regular w.whites (w.spaces 0) (presetPrimaries .cieRGB) (presetWhite .cieRGB) ∧
    ∀ al, Trip w (rgbOf 1 0 0 al (some 0)) .xyz .rgbDeep (rgbOf 0 0 0 al (some 0)) := by
  obtain ⟨w, hw, hm, -, -, hreach, hr, he⟩ := exists_world .cieRGB gp
  refine ⟨w, hw, hr, fun al => ?_⟩
  obtain ⟨gm, hgm, hgm'⟩ := preset_curves gp (fun _ => ⟨none, 1⟩) 0
  obtain ⟨gm', hg', ⟨c0, -, -⟩, ⟨i0, i1, -⟩⟩ := C29_ends gp (fun _ => ⟨none, 1⟩) 0
  rw [hgm, ok_inj] at hg'
  subst hg'
  rw [(hgm' _).1, ← (he _).1] at c0
  rw [(hgm' _).2, ← (he _).2] at i0 i1
  have hd := preset_det .cieRGB
  have hwt := weights_cramer _ (presetWhite .cieRGB) hd.ne'
  obtain ⟨k, hk, k0, -⟩ := C31_primaries _ _ hreach _ _ hr
  have hk' : k = fun i => ((presetPrimaries .cieRGB).updateCol i (presetWhite .cieRGB)).det / (presetPrimaries .cieRGB).det := by
    have u := isUnit_iff_ne_zero.mpr hd.ne'
    have := congrArg (presetPrimaries .cieRGB)⁻¹.mulVec (hk.trans hwt.symm)
    rwa [Matrix.mulVec_mulVec, Matrix.mulVec_mulVec, Matrix.nonsing_inv_mul _ u, Matrix.one_mulVec, Matrix.one_mulVec] at this
  have hv : k 0 < -0.45 := by
    rw [hk']
    simp only
    rw [div_lt_iff₀ hd, Matrix.det_fin_three, Matrix.det_fin_three]
    simp [presetPrimaries, presetWhite, ccMat, SpacePreset.primaries, SpacePreset.white, WhitePreset.literals, Matrix.updateCol_apply]
    norm_num
  obtain ⟨⟨M, N, -, hN, -⟩, -⟩ := C32_inverse _ _ hreach _ _ _ hr hwt (fun i => div_ne_zero ((preset_weights .cieRGB).1 i) hd.ne')
  have hzero := Mat.mulVec_three (f := fin) Mat.emb_fin N ![0, 0, 0]
  rw [← hN] at hzero
  have hz : (w.spaces 0).inverse.mulVec [fin 0, fin 0, fin 0] = ok [fin 0, fin 0, fin 0] := by
    have e : N.mulVec ![0, 0, 0] = 0 := by
      have : (![0, 0, 0] : Fin 3 → ℝ) = 0 := by ext i; fin_cases i <;> rfl
      rw [this, Matrix.mulVec_zero]
    rw [e] at hzero
    exact hzero
  refine trip_of (s := .rgbDeep) (d := obj .xyz 0 0 0 al (some 0)) (by decide) (by decide) (by decide) (isRgb_rgbOf _ _ (by norm_num)).col ?_ ?_
  · change Val.rgb_deep_to_xyz w (obj .rgbDeep 1 0 0 al (some 0)) = _
    simp only [Val.rgb_deep_to_xyz, Leaf.inverseGamma, obj_space, World.space, ok_bind, World.gamma, hm]
    rw [applyGamma_unit _ i1 i0 i0 (by norm_num) (by norm_num) (by norm_num)]
    simp only [Leaf.linear_to_xyz, obj_space, World.space, ok_bind]
    rw [show (obj .rgbDeep 1 0 0 al (some 0)).comps = [fin 1, fin 0, fin 0] from rfl]
    simp only [zero_def, one_def] at k0
    rw [k0]
    simp only [ok_bind, Mat.vget, List.getElem?_cons_zero, List.getElem?_cons_succ, obj_alpha _ _ _ _ _ _ (rfl : Color.scalesAlpha .rgbDeep = false), Color.construct_xyz,
      Color.mkXyz]
    have neg : ∀ q : ℝ, q ≤ 0 → Color.clamp (fin q) 100 0 = fin 0 := by
      intro q hq
      simp only [lit_def, zero_def, Color.clamp_fin]
      rw [min_eq_left (by linarith), max_eq_right hq]
    have p0 := preset_nonneg .cieRGB
    rw [neg _ (mul_nonpos_of_nonpos_of_nonneg (by linarith) (p0 0 0)), neg _ (mul_nonpos_of_nonpos_of_nonneg (by linarith) (p0 1 0)),
      neg _ (mul_nonpos_of_nonpos_of_nonneg (by linarith) (p0 2 0))]
    rfl
  · change Leaf.xyz_to_rgb_deep w _ = _
    exact back_linear w 0 0 hm al hz (by norm_num) (by norm_num) (by norm_num) c0 c0 c0 (by norm_num) (by norm_num) (by norm_num)

/-! ## C49 XYZ and CIELUV -/

/-- **C49 (partial)** For every colour and white point the trip through CIELUV ends in an XYZ colour with the opacity and colour space of the original.  The components are never
those of the original, see `C49_violated`. -/
theorem C49_opacity_partial (w : World) (c : Color) (x y z : ℝ) (h : IsXyz c x y z) (s q : Nat) (hs : c.space = some s) (hq : (w.spaces s).white = some q) :
    ∃ c', Trip w c .cieluv .xyz c' ∧ IsColor .xyz c' ∧ c'.malpha = c.malpha ∧ c'.space = c.space := by
  have he := h.eq
  generalize hal : c.malpha = al at he ⊢
  have h1 : ∃ L u v, Leaf.xyz_to_cieluv w c = ok (Color.mkCieluv L u v al (some s)) := by
    rw [he]
    simp only [Leaf.xyz_to_cieluv, obj_0, obj_1, obj_2, obj_space, obj_alpha _ _ _ _ _ _ (rfl : Color.scalesAlpha .xyz = false), ok_bind, hs, World.space, World.white, hq,
      Color.construct_cieluv]
    exact ⟨_, _, _, rfl⟩
  obtain ⟨L, u, v, h1⟩ := h1
  have h2 : ∃ X Y Z, Leaf.cieluv_to_xyz w (Color.mkCieluv L u v al (some s)) = ok (Color.mkXyz .xyz X Y Z al (some s)) := by
    simp only [Leaf.cieluv_to_xyz, Color.mkCieluv, Conv.get3_0, Conv.get3_1, Conv.get3_2, Color.alpha, Color.scalesAlpha, Bool.false_eq_true, if_false, ok_bind, World.space,
      World.white, hq, Color.construct_xyz]
    exact ⟨_, _, _, rfl⟩
  obtain ⟨X, Y, Z, h2⟩ := h2
  exact ⟨_, trip_of (s := .xyz) (by decide) (by decide) (by decide) h.col h1 h2, ⟨rfl, rfl, rfl, rfl, rfl⟩, rfl, hs.symm⟩

/-- The lightness function of CIELUV, with the constants of the code. -/
noncomputable def ConvSpec.luvL (t : ℝ) : ℝ := if 0.008856 < t then 116 * t ^ (1 / 3 : ℝ) - 16 else 903.3 * t

omit [FloatModel] [ExactModel] in
theorem luvL_pos {t : ℝ} (ht : 0 < t) : 0 < luvL t := by
  unfold luvL
  split
  · rename_i h
    have : (1 / 5 : ℝ) < t ^ (1 / 3 : ℝ) := by
      by_contra hh
      push Not at hh
      have h3 : (t ^ (1 / 3 : ℝ)) ^ 3 = t := by rw [← Real.rpow_natCast, ← Real.rpow_mul ht.le]; norm_num
      have : (t ^ (1 / 3 : ℝ)) ^ 3 ≤ (1 / 5) ^ 3 := pow_le_pow_left₀ (Real.rpow_nonneg ht.le _) hh 3
      rw [h3] at this
      norm_num at this h
      linarith
    linarith
  · positivity

/-- The way back from CIELUV (finite, inside the limits, `52 L x / D` and `13 L (9 y / D + e)` positive): the components of the result. -/
theorem C49_aux (w : World) (c : Color) (x y z : ℝ) (h : IsXyz c x y z) (wx wy wz : ℝ) (hw : HasWhite w c.space wx wy wz)
    (px : 0 < wx) (py : 0 < wy) (pz : 0 < wz) (hx : 0 < x) (hL : luvL (x / wy) ≤ 100)
    (hu : |13 * luvL (x / wy) * (4 * x / (x + 15 * y + 3 * z) - 4 * wx / (wx + 15 * wy + 3 * wz))| ≤ 100)
    (hv : |13 * luvL (x / wy) * (9 * y / (x + 15 * y + 3 * z) - 4 * wy / (wx + 15 * wy + 3 * wz))| ≤ 100) :
    ∃ c' Y Z, Trip w c .cieluv .xyz c' ∧ 0 ≤ Y ∧ Y ≤ 100 ∧
      c'.comps = [Color.clamp (fin (9 * x * Y / (9 * y + 5 * wy / (wx + 15 * wy + 3 * wz) * (x + 15 * y + 3 * z)))) 100 0, fin Y, Z] := by
  obtain ⟨-, -, x0, x1, y0, y1, z0, z1⟩ := id h
  obtain ⟨s, q, hs, hq, ht⟩ := hw
  have he := h.eq
  have hD : 0 < x + 15 * y + 3 * z := by linarith
  have hDW : 0 < wx + 15 * wy + 3 * wz := by linarith
  have hLp : 0 < luvL (x / wy) := luvL_pos (by positivity)
  set L := luvL (x / wy) with hLdef
  set D := x + 15 * y + 3 * z with hDdef
  set DW := wx + 15 * wy + 3 * wz with hDWdef
  have c100 : ∀ v : ℝ, |v| ≤ 100 → Color.clamp (fin v) 100 (-100) = fin v := by
    intro v hv
    rw [abs_le] at hv
    have : (-100 : Fl) = fin (-100) := by simp
    rw [this]
    simp [Color.clamp_fin, hv.1, hv.2]
  have h1 : Leaf.xyz_to_cieluv w c = ok (obj .cieluv L (13 * L * (4 * x / D - 4 * wx / DW)) (13 * L * (9 * y / D - 4 * wy / DW)) c.malpha c.space) := by
    generalize c.malpha = al at he ⊢
    rw [he]
    simp only [Leaf.xyz_to_cieluv, obj_0, obj_1, obj_2, obj_space, obj_alpha _ _ _ _ _ _ (rfl : Color.scalesAlpha .xyz = false), ok_bind, hs, World.space, World.white, hq, ht,
      Color.construct_cieluv, lit_exact, lit_def, one_def]
    rw [div_exact _ _ py.ne', div_exact _ _ (by norm_num : (3 : ℝ) ≠ 0), ExactModel.powf_eq _ _ (Or.inl (by positivity))]
    simp only [mul_exact, add_exact, sub_exact, fin_lt, ← hDdef, ← hDWdef]
    rw [div_exact _ _ hD.ne', div_exact _ _ hD.ne', div_exact _ _ hDW.ne', div_exact _ _ hDW.ne', ← apply_ite fin, show (if (0.008856 : ℝ) < x / wy then 116 * (x / wy) ^ (1 / 3 : ℝ) - 16 else 903.3 * (x / wy)) = L from rfl]
    simp only [mul_exact, sub_exact, Color.mkCieluv]
    rw [c100 _ hu, c100 _ hv, clamp100 hLp.le hL]
    rfl
  set Y := if 903.3 * 0.008856 < L then ((L + 16) / 116) ^ 3 else L / 903.3 with hY
  have Y0 : 0 ≤ Y := by rw [hY]; split <;> positivity
  have Y1 : Y ≤ 100 := by
    rw [hY]
    split
    · have : ((L + 16) / 116) ^ 3 ≤ 1 := pow_le_one₀ (by positivity) (by linarith)
      linarith
    · rw [div_le_iff₀ (by norm_num)]; linarith
  have h2 : ∃ Z, Leaf.cieluv_to_xyz w (obj .cieluv L (13 * L * (4 * x / D - 4 * wx / DW)) (13 * L * (9 * y / D - 4 * wy / DW)) c.malpha c.space) =
      ok (Color.mkXyz .xyz (fin (9 * x * Y / (9 * y + 5 * wy / DW * D))) (fin Y) Z c.malpha c.space) := by
    simp only [Leaf.cieluv_to_xyz, obj_0, obj_1, obj_2, obj_space, obj_alpha _ _ _ _ _ _ (rfl : Color.scalesAlpha .cieluv = false), ok_bind, hs, World.space, World.white, hq, ht,
      Color.construct_xyz, lit_exact, lit_def, one_def, neg_fin, mul_exact, add_exact, sub_exact, fin_lt, ← hDWdef]
    rw [div_exact _ _ hDW.ne', div_exact _ _ hDW.ne', div_exact _ _ (by norm_num : (903.3 : ℝ) ≠ 0), div_exact _ _ (by norm_num : (116 : ℝ) ≠ 0),
      ExactModel.powf_eq _ _ (Or.inl (by positivity)), ← apply_ite fin, show ((L + 16) / 116) ^ (3 : ℝ) = ((L + 16) / 116) ^ 3 by rw [← Real.rpow_natCast]; norm_num, ← hY,
      div_exact _ _ (by norm_num : (3 : ℝ) ≠ 0), div_exact _ _ (by norm_num : (3 : ℝ) ≠ 0)]
    simp only [mul_exact, add_exact, sub_exact]
    have e1 : 13 * L * (4 * x / D - 4 * wx / DW) + 13 * L * (4 * wx / DW) = 52 * L * x / D := by ring
    have e2 : 13 * L * (9 * y / D - 4 * wy / DW) + 13 * L * (9 * wy / DW) = 13 * L * (9 * y / D + 5 * wy / DW) := by ring
    have p2 : 0 < 9 * y / D + 5 * wy / DW := by positivity
    rw [e1, e2, div_exact _ _ (by positivity), div_exact _ _ (by positivity)]
    simp only [mul_exact, add_exact, sub_exact]
    have e3 : 1 / 3 * (52 * L / (52 * L * x / D) - 1) - -1 / 3 = D / (3 * x) := by field_simp; ring
    rw [e3, div_exact _ _ (by positivity)]
    have e4 : (Y * (39 * L / (13 * L * (9 * y / D + 5 * wy / DW)) - 5) - -5 * Y) / (D / (3 * x)) = 9 * x * Y / (9 * y + 5 * wy / DW * D) := by
      have : 9 * y / D + 5 * wy / DW = (9 * y + 5 * wy / DW * D) / D := by field_simp
      rw [this]
      have p3 : 0 < 9 * y + 5 * wy / DW * D := by positivity
      field_simp
      ring
    rw [e4]
    exact ⟨_, rfl⟩
  obtain ⟨Z, h2⟩ := h2
  refine ⟨_, Y, Color.clamp Z 100 0, trip_of (s := .xyz) (by decide) (by decide) (by decide) h.col h1 h2, Y0, Y1, ?_⟩
  simp only [Color.mkXyz, clamp100 Y0 Y1]

/-- CIELUV colours with lightness zero come back with X = 100. -/
theorem luv_dark (w : World) (u v wx wy wz : ℝ) (al : Fl) (s q : Nat) (hq : (w.spaces s).white = some q) (ht : (w.whites q).tri = ⟨fin wx, fin wy, fin wz⟩)
    (px : 0 < wx) (py : 0 < wy) (pz : 0 < wz) (hv : u = 0 ∨ v ≠ 0) : ∃ Y Z, Leaf.cieluv_to_xyz w (obj .cieluv 0 u v al (some s)) = ok (Color.mkXyz .xyz nan Y Z al (some s)) := by
  have hDW : 0 < wx + 15 * wy + 3 * wz := by linarith
  simp only [Leaf.cieluv_to_xyz, obj_0, obj_1, obj_2, obj_space, obj_alpha _ _ _ _ _ _ (rfl : Color.scalesAlpha .cieluv = false), ok_bind, World.space, World.white, hq, ht,
    Color.construct_xyz, lit_exact, lit_def, one_def, neg_fin, mul_exact, add_exact, sub_exact, fin_lt]
  rw [div_exact _ _ hDW.ne', div_exact _ _ hDW.ne', if_neg (by norm_num), div_exact _ _ (by norm_num : (903.3 : ℝ) ≠ 0)]
  simp only [mul_exact, add_exact, mul_zero, zero_mul, zero_div, add_zero]
  rcases eq_or_ne u 0 with hu | hu
  · rw [hu]
    simp only [zero_div_zero, nan_sub, sub_nan, mul_nan, nan_mul, div_nan]
    exact ⟨_, _, rfl⟩
  · have hv : v ≠ 0 := hv.resolve_left hu
    rw [div_exact _ _ hu, div_exact _ _ hv, div_exact _ _ (by norm_num : (3 : ℝ) ≠ 0), div_exact _ _ (by norm_num : (3 : ℝ) ≠ 0)]
    simp only [mul_exact, add_exact, sub_exact]
    norm_num
    exact ⟨_, _, rfl⟩

/-- **C49 violated** No colour inside the limits of CIELUV comes back unchanged, whatever the (positive) white point: the conversion takes the lightness from X instead of Y and the
chromaticity v' of the white point with the factor 4 instead of 9. -/
theorem C49_violated (w : World) (c : Color) (x y z : ℝ) (h : IsXyz c x y z) (wx wy wz : ℝ) (hw : HasWhite w c.space wx wy wz)
    (px : 0 < wx) (py : 0 < wy) (pz : 0 < wz) (hL : luvL (x / wy) ≤ 100)
    (hu : |13 * luvL (x / wy) * (4 * x / (x + 15 * y + 3 * z) - 4 * wx / (wx + 15 * wy + 3 * wz))| ≤ 100)
    (hv : |13 * luvL (x / wy) * (9 * y / (x + 15 * y + 3 * z) - 4 * wy / (wx + 15 * wy + 3 * wz))| ≤ 100) : ¬ Trip w c .cieluv .xyz c := by
  obtain ⟨-, -, x0, x1, y0, y1, z0, z1⟩ := id h
  intro hh
  rcases x0.eq_or_lt with rfl | hx
  · obtain ⟨s, q, hs, hq, ht⟩ := hw
    have hDW : 0 < wx + 15 * wy + 3 * wz := by linarith
    have he := h.eq
    have h1 : ∃ u v : ℝ, (u = 0 ∨ v ≠ 0) ∧ Leaf.xyz_to_cieluv w c = ok (obj .cieluv 0 u v c.malpha (some s)) := by
      generalize c.malpha = al at he ⊢
      rw [he]
      simp only [Leaf.xyz_to_cieluv, obj_0, obj_1, obj_2, obj_space, obj_alpha _ _ _ _ _ _ (rfl : Color.scalesAlpha .xyz = false), ok_bind, hs, World.space, World.white, hq, ht,
        Color.construct_cieluv, lit_exact, lit_def, one_def]
      rw [div_exact _ _ py.ne', zero_div]
      simp only [mul_exact, add_exact, fin_lt]
      rw [if_neg (by norm_num), div_exact _ _ hDW.ne', div_exact _ _ hDW.ne']
      simp only [mul_zero, mul_exact]
      have n100 : (-100 : Fl) = fin (-100) := by simp
      rcases eq_or_lt_of_le (show 0 ≤ 0 + 15 * y + 3 * z by linarith) with hD | hD
      · have hy : y = 0 := by linarith
        have hz : z = 0 := by linarith
        subst hy; subst hz
        refine ⟨100, 100, Or.inr (by norm_num), ?_⟩
        simp only [mul_zero, add_zero, zero_div_zero, nan_sub, mul_nan, Color.mkCieluv, obj, Color.maxOf, Color.minOf, lit_def, n100, Color.clamp_nan 100 (-100) (by norm_num)]
        simp [Color.clamp_fin, Color.clamp_nan 100 (-100) (by norm_num)]
      · refine ⟨0, 0, Or.inl rfl, ?_⟩
        rw [div_exact _ _ hD.ne', div_exact _ _ hD.ne']
        simp only [sub_exact, mul_exact, zero_mul, Color.mkCieluv, obj, Color.maxOf, Color.minOf, lit_def, n100]
        simp [Color.clamp_fin]
    obtain ⟨u, v, huv, h1⟩ := h1
    obtain ⟨Y, Z, h2⟩ := luv_dark w u v wx wy wz c.malpha s q hq ht px py pz huv
    have := congrArg Color.comps (hh.unique (trip_of (s := .xyz) (by decide) (by decide) (by decide) h.col h1 h2))
    rw [h.comps] at this
    simp only [Color.mkXyz, List.cons.injEq, lit_def, zero_def, Color.clamp_nan 100 0 (by norm_num)] at this
    have := this.1
    norm_num at this
  · obtain ⟨c', Y, Z, htr, Y0, Y1, hc⟩ := C49_aux w c x y z h wx wy wz hw px py pz hx hL hu hv
    rw [← hh.unique htr, h.comps] at hc
    have hD : 0 < x + 15 * y + 3 * z := by linarith
    have hDW : 0 < wx + 15 * wy + 3 * wz := by linarith
    simp only [lit_def, zero_def, Color.clamp_fin, List.cons.injEq, fin.injEq, and_true] at hc
    obtain ⟨hX, rfl, -⟩ := hc
    set e := 5 * wy / (wx + 15 * wy + 3 * wz) * (x + 15 * y + 3 * z) with he
    have e0 : 0 < e := by positivity
    have hX' : x ≤ 9 * x * y / (9 * y + e) := by
      have p : 0 ≤ 9 * x * y / (9 * y + e) := by positivity
      have := max_le (min_le_left (9 * x * y / (9 * y + e)) 100) p
      rwa [← hX] at this
    rw [le_div_iff₀ (by positivity)] at hX'
    nlinarith [mul_pos hx e0]

/-- Case: an XYZ colour whose values in CIELUV are inside the limits. -/
example [StdSort] : ∃ w : World, ¬ Trip w (obj .xyz 0.008 0.008 0.008 1 (some 0)) .cieluv .xyz (obj .xyz 0.008 0.008 0.008 1 (some 0)) := by
  obtain ⟨w, -, -, hw, hq, -⟩ := exists_world .sRGB .g2_2
  refine ⟨w, C49_violated w _ 0.008 0.008 0.008 ⟨⟨rfl, rfl, rfl, rfl, rfl⟩, rfl, by norm_num, by norm_num, by norm_num, by norm_num, by norm_num, by norm_num⟩ 0.9504 1 1.0888
    ⟨0, 0, rfl, hw, ?_⟩ (by norm_num) (by norm_num) (by norm_num) ?_ ?_ ?_⟩
  · rw [hq]; simp [WhitePreset.create, WhitePoint.make, SpacePreset.white, WhitePreset.literals]
  all_goals norm_num [luvL, abs_le]

/-! ## C50 LAB, CIELUV and LCH -/

/-- `t` is LAB or CIELUV, `l` the matching LCH type and `M` the limit of the second and third component. -/
inductive ConvSpec.Polar : ColorType → ColorType → ℝ → Prop
  | ab : Polar .lab .lchAb 128
  | uv : Polar .cieluv .lchUv 100

/-- `c` is a LAB or CIELUV colour with lightness `L`, components `a` and `b`, and opacity `al`. -/
structure ConvSpec.IsCart (t : ColorType) (M : ℝ) (c : Color) (L a b al : ℝ) : Prop where
  col : IsColor t c
  comps : c.comps = [fin L, fin a, fin b]
  L0 : 0 ≤ L
  L1 : L ≤ 100
  ca : |a| ≤ M
  cb : |b| ≤ M
  alpha : c.malpha = fin al
  al0 : 0 ≤ al
  al1 : al ≤ 1

/-- The hue as the conversion to LCH stores it: radians, 360 added if negative, at most 359. -/
noncomputable def ConvSpec.lchHue (a b : ℝ) : ℝ :=
  min (if Complex.arg ⟨a, b⟩ < 0 then Complex.arg ⟨a, b⟩ + 360 else Complex.arg ⟨a, b⟩) 359

/-- The chroma as the conversion to LCH stores it: rescaled from `[-M, M]` to `[0, 100]`. -/
noncomputable def ConvSpec.lchChroma (M a b : ℝ) : ℝ := min ((Real.sqrt (a ^ 2 + b ^ 2) + M) * 100 / (2 * M)) 100

omit [FloatModel] [ExactModel] in
theorem lchHue_range (a b : ℝ) : 0 ≤ lchHue a b ∧ lchHue a b ≤ 359 := by
  refine ⟨le_min ?_ (by norm_num), min_le_right _ _⟩
  split
  · have := Complex.neg_pi_lt_arg ⟨a, b⟩
    have := Real.pi_le_four
    linarith
  · linarith

omit [FloatModel] [ExactModel] in
theorem lchChroma_range {M : ℝ} (hM : 0 < M) (a b : ℝ) : 0 ≤ lchChroma M a b ∧ lchChroma M a b ≤ 100 :=
  ⟨le_min (by positivity) (by norm_num), min_le_right _ _⟩

/-- The trip of every LAB or CIELUV colour through LCH. -/
theorem lch_trip {t l : ColorType} {M : ℝ} (htl : Polar t l M) (w : World) (c : Color) (L a b al : ℝ) (h : IsCart t M c L a b al) :
    Trip w c l t { c with comps := [fin L, fin (lchChroma M a b * Real.cos (lchHue a b * Real.pi / 180)), fin (lchChroma M a b * Real.sin (lchHue a b * Real.pi / 180))] } := by
  obtain ⟨hcol, hcomp, L0, L1, -, -, ha, a0, a1⟩ := h
  have e2 : ∀ x : ℝ, powf (fin x) (fin 2) = fin (x ^ 2) := by
    intro x
    rw [ExactModel.powf_eq _ _ (Or.inr (Or.inr ⟨2, by norm_num⟩))]
    norm_num
  have hM : 0 < M := by cases htl <;> norm_num
  have hM' : 100 ≤ M := by cases htl <;> norm_num
  have hal : Color.clamp (fin al) 1 0 = fin al := clamp01 a0 a1
  obtain ⟨H0, H1⟩ := lchHue_range a b
  obtain ⟨C0, C1⟩ := lchChroma_range hM a b
  have hcl : Color.clamp (fin ((Real.sqrt (a ^ 2 + b ^ 2) + M) * 100 / (2 * M))) 100 0 = fin (lchChroma M a b) := by
    simp only [lit_def, zero_def, Color.clamp_fin]
    rw [max_eq_left]; · rfl
    exact C0
  have hhl : Color.clamp (fin (if Complex.arg ⟨a, b⟩ < 0 then Complex.arg ⟨a, b⟩ + 360 else Complex.arg ⟨a, b⟩)) 359 0 = fin (lchHue a b) := by
    simp only [lit_def, zero_def, Color.clamp_fin]
    rw [max_eq_left]; · rfl
    exact H0
  have n128 : (-128 : Fl) = fin (-128) := by simp
  have n100 : (-100 : Fl) = fin (-100) := by simp
  have cM : ∀ v : ℝ, |v| ≤ 1 → Color.clamp (fin (lchChroma M a b * v)) (fin M) (fin (-M)) = fin (lchChroma M a b * v) := by
    intro v hv
    have : |lchChroma M a b * v| ≤ M := by
      rw [abs_mul, abs_of_nonneg C0]
      calc lchChroma M a b * |v| ≤ 100 * 1 := by gcongr
        _ ≤ M := by linarith
    rw [abs_le] at this
    rw [Color.clamp_fin, min_eq_left this.2, max_eq_left this.1]
  have cc := cM _ (Real.abs_cos_le_one (lchHue a b * Real.pi / 180))
  have cs := cM _ (Real.abs_sin_le_one (lchHue a b * Real.pi / 180))
  have he : c = ⟨t, t, [fin L, fin a, fin b], fin al, fin M, fin (-M), c.space⟩ := by
    obtain ⟨h1, h2, -, h3, h4⟩ := hcol
    cases c
    simp only at *
    cases htl <;> simp [h1, h2, h3, h4, hcomp, ha, Color.maxOf, Color.minOf]
  generalize hsp : c.space = sp at he
  have hr : 0 ≤ a ^ 2 + b ^ 2 := by positivity
  have key1 : (Leaf.transformRange (Fl.sqrt (powf (fin a) 2 + powf (fin b) 2)) (fin (-M)) (fin M) 0 100) = fin ((Real.sqrt (a ^ 2 + b ^ 2) + M) * 100 / (2 * M)) := by
    simp only [Leaf.transformRange, lit_def, zero_def, e2, add_exact, sqrt_exact _ hr, sub_exact, mul_exact]
    rw [div_exact _ _ (by linarith), add_exact]
    congr 1
    rw [show M - -M = 2 * M by ring]; ring
  have key2 : (if atan2f (fin b) (fin a) < 0 then atan2f (fin b) (fin a) + 360 else atan2f (fin b) (fin a)) =
      fin (if Complex.arg ⟨a, b⟩ < 0 then Complex.arg ⟨a, b⟩ + 360 else Complex.arg ⟨a, b⟩) := by
    simp only [ExactModel.atan2f_eq, zero_def, fin_lt, lit_def, add_exact, ← apply_ite fin]
  refine trip_of (s := t) (d := obj l L (lchChroma M a b) (lchHue a b) (fin al) sp) (by cases htl <;> decide) (by cases htl <;> decide) (by cases htl <;> decide) hcol ?_ ?_
  · have : Val.conv t l w c = Leaf.to_lch l c := by cases htl <;> rfl
    rw [this, he]
    simp only [Leaf.to_lch, Conv.get3_0, Conv.get3_1, Conv.get3_2, ok_bind, key1, key2]
    cases htl
    · simp only [Color.construct_lchAb, Color.mkLch, hcl, hhl, clamp100 L0 L1, ok_bind, Color.setAlpha, Color.alpha, Color.scalesAlpha, Bool.false_eq_true, if_false, hal]
      rfl
    · simp only [Color.construct_lchUv, Color.mkLch, hcl, hhl, clamp100 L0 L1, ok_bind, Color.setAlpha, Color.alpha, Color.scalesAlpha, Bool.false_eq_true, if_false, hal]
      rfl
  · have : ∀ d, Val.conv l t w d = Leaf.from_lch t d := by cases htl <;> exact fun _ => rfl
    rw [this]
    have hs : Color.scalesAlpha l = false := by cases htl <;> rfl
    simp only [Leaf.from_lch, obj_0, obj_1, obj_2, obj_space, obj_alpha _ _ _ _ _ _ hs, ok_bind, lit_exact, lit_def, mul_exact]
    rw [div_exact _ _ (by norm_num), ExactModel.cosf_eq, ExactModel.sinf_eq, mul_exact, mul_exact]
    have hc' : ({ c with comps := [fin L, fin (lchChroma M a b * Real.cos (lchHue a b * Real.pi / 180)), fin (lchChroma M a b * Real.sin (lchHue a b * Real.pi / 180))], space := sp } : Color) =
      ⟨t, t, [fin L, fin (lchChroma M a b * Real.cos (lchHue a b * Real.pi / 180)), fin (lchChroma M a b * Real.sin (lchHue a b * Real.pi / 180))], fin al, fin M, fin (-M), sp⟩ := by
      rw [he]
    rw [hc']
    cases htl
    · rw [← n128, show fin (128 : ℝ) = (128 : Fl) by simp] at cc cs
      simp only [Color.construct_lab, Color.mkLab, cc, cs, clamp100 L0 L1, ok_bind, Color.setAlpha, Color.scalesAlpha, Bool.false_eq_true, if_false, hal]
      simp
    · rw [← n100, show fin (100 : ℝ) = (100 : Fl) by simp] at cc cs
      simp only [Color.construct_cieluv, Color.mkCieluv, cc, cs, clamp100 L0 L1, ok_bind, Color.setAlpha, Color.scalesAlpha, Bool.false_eq_true, if_false, hal]
      simp

/-- **C50 (partial)** Lightness, opacity, colour space and the validity of the colour survive the trip through LCH.  Components `a` and `b` (`u` and `v`) do not, see `C50_violated`. -/
theorem C50_lightness_partial {t l : ColorType} {M : ℝ} (htl : Polar t l M) (w : World) (c : Color) (L a b al : ℝ) (h : IsCart t M c L a b al) :
    ∃ c' a' b', Trip w c l t c' ∧ IsCart t M c' L a' b' al ∧ c'.space = c.space := by
  have hM : 0 < M := by cases htl <;> norm_num
  have hM' : 100 ≤ M := by cases htl <;> norm_num
  obtain ⟨C0, C1⟩ := lchChroma_range hM a b
  have bd : ∀ v : ℝ, |v| ≤ 1 → |lchChroma M a b * v| ≤ M := by
    intro v hv
    rw [abs_mul, abs_of_nonneg C0]
    calc lchChroma M a b * |v| ≤ 100 * 1 := by gcongr
      _ ≤ M := by linarith
  have hcol := h.col
  refine ⟨_, _, _, lch_trip htl w c L a b al h, ⟨⟨hcol.cls, hcol.ctype, ?_, hcol.maxv, hcol.minv⟩, rfl, h.L0, h.L1, bd _ (Real.abs_cos_le_one _), bd _ (Real.abs_sin_le_one _), h.alpha, h.al0, h.al1⟩, rfl⟩
  have := hcol.len
  rw [h.comps] at this
  exact this

/-- **C50 violated** A LAB or CIELUV colour comes back changed unless its chroma is the fixed point `100 M / (2 M - 100)` of the rescaling and `b ≤ 0`; in particular every neutral colour
(`a = b = 0`) comes back with chroma 50. -/
theorem C50_violated {t l : ColorType} {M : ℝ} (htl : Polar t l M) (w : World) (c : Color) (L a b al : ℝ) (h : IsCart t M c L a b al)
    (hne : Real.sqrt (a ^ 2 + b ^ 2) * (2 * M - 100) ≠ 100 * M ∨ 0 < b) : ¬ Trip w c l t c := by
  intro hh
  have hM : 0 < M := by cases htl <;> norm_num
  have e := congrArg Color.comps (hh.unique (lch_trip htl w c L a b al h))
  rw [h.comps] at e
  simp only [List.cons.injEq, fin.injEq, and_true, true_and] at e
  obtain ⟨ea, eb⟩ := e
  have hsq : a ^ 2 + b ^ 2 = lchChroma M a b ^ 2 := by
    have := Real.sin_sq_add_cos_sq (lchHue a b * Real.pi / 180)
    calc a ^ 2 + b ^ 2 = (lchChroma M a b * Real.cos (lchHue a b * Real.pi / 180)) ^ 2 + (lchChroma M a b * Real.sin (lchHue a b * Real.pi / 180)) ^ 2 := by rw [← ea, ← eb]
      _ = lchChroma M a b ^ 2 * (Real.sin (lchHue a b * Real.pi / 180) ^ 2 + Real.cos (lchHue a b * Real.pi / 180) ^ 2) := by ring
      _ = _ := by rw [this, mul_one]
  obtain ⟨C0, C1⟩ := lchChroma_range hM a b
  have hs : Real.sqrt (a ^ 2 + b ^ 2) = lchChroma M a b := by rw [hsq, Real.sqrt_sq C0]
  rcases hne with hne | hb
  · apply hne
    have hC : lchChroma M a b = min ((lchChroma M a b + M) * 100 / (2 * M)) 100 := by
      conv_lhs => rw [lchChroma, hs]
    rw [hs]
    generalize lchChroma M a b = C at *
    rcases min_cases ((C + M) * 100 / (2 * M)) 100 with ⟨h1, h2⟩ | ⟨h1, h2⟩
    · rw [h1, eq_div_iff (by positivity)] at hC
      linarith
    · rw [h1] at hC
      rw [lt_div_iff₀ (by positivity)] at h2
      subst hC
      cases htl <;> norm_num at h2
  · have hC : 0 < lchChroma M a b := by
      refine lt_of_le_of_ne C0 fun h0 => ?_
      rw [← h0, zero_mul] at eb
      linarith
    have hn : ‖(⟨a, b⟩ : ℂ)‖ = lchChroma M a b := by
      rw [Complex.norm_eq_sqrt_sq_add_sq, ← hs]
    have harg : 0 ≤ Complex.arg ⟨a, b⟩ := Complex.arg_nonneg_iff.mpr hb.le
    have hpi := Complex.arg_le_pi ⟨a, b⟩
    have hhue : lchHue a b = Complex.arg ⟨a, b⟩ := by
      rw [lchHue, if_neg (not_lt.mpr harg), min_eq_left (by linarith [Real.pi_le_four])]
    have h1 := Complex.norm_mul_cos_arg ⟨a, b⟩
    rw [hn] at h1
    rw [hhue] at ea eb
    simp only at h1
    have hcos : Real.cos (Complex.arg ⟨a, b⟩) = Real.cos (Complex.arg ⟨a, b⟩ * Real.pi / 180) := by
      have := h1.trans ea
      exact mul_left_cancel₀ hC.ne' this
    have hp4 := Real.pi_le_four
    have hp0 := Real.pi_pos
    have := Real.injOn_cos ⟨harg, hpi⟩ ⟨by positivity, by nlinarith⟩ hcos
    have h0 : Complex.arg ⟨a, b⟩ = 0 := by
      have : Complex.arg ⟨a, b⟩ * (180 - Real.pi) = 0 := by linarith
      rcases mul_eq_zero.mp this with h | h
      · exact h
      · linarith
    rw [h0] at eb
    simp at eb
    linarith

/-- Case: a neutral LAB colour. -/
example (w : World) : ¬ Trip w (obj .lab 50 0 0 1 none) .lchAb .lab (obj .lab 50 0 0 1 none) :=
  C50_violated .ab w _ 50 0 0 1 ⟨⟨rfl, rfl, rfl, rfl, rfl⟩, rfl, by norm_num, by norm_num, by norm_num, by norm_num, by simp [obj], by norm_num, by norm_num⟩ (by norm_num)
/-- Case: a CIELUV colour. -/
example (w : World) : ¬ Trip w (obj .cieluv 50 60 80 1 none) .lchUv .cieluv (obj .cieluv 50 60 80 1 none) :=
  C50_violated .uv w _ 50 60 80 1 ⟨⟨rfl, rfl, rfl, rfl, rfl⟩, rfl, by norm_num, by norm_num, by norm_num [abs_le], by norm_num [abs_le], by simp [obj], by norm_num, by norm_num⟩ (Or.inr (by norm_num))

end

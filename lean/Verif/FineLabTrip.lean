import Verif.FineLab
import Verif.FineTrip

/-!
# One trip through the LAB class in single precision
-/

open Outcome Fl Prog ObjectSpec ConvSpec Hue

namespace FineLab

variable [FloatModel] [FineError]

omit [FloatModel] [FineError] in
theorem labF_one_add {t δ : ℝ} (ht : 0 ≤ t) (hδ : 0 ≤ δ) (h : t ≤ 1 + δ) : labF t ≤ 1 + δ / 3 := by
  rcases labF_cases ht with ⟨h1, h2, -⟩ | ⟨-, h2, -⟩
  · refine cube_high ?_ (by positivity)
    rw [h2]
    nlinarith [mul_nonneg hδ hδ, mul_nonneg (mul_nonneg hδ hδ) hδ]
  · norm_num at h2 ⊢; linarith

omit [FloatModel] [FineError] in
theorem labF_low {t : ℝ} (ht : 0 ≤ t) : 4 / 29 ≤ labF t := by
  rcases labF_cases ht with h | h <;> linarith [h.1]

/-- The quotient by a component of the white point. -/
theorem quotient {x c : ℝ} (x0 : 0 ≤ x) (c0 : 0 < c) (h : x / c ≤ 1.0009) : ∃ t, fin x / fin c = fin t ∧ 0 ≤ t ∧ |t - x / c| ≤ 1.21e-7 ∧ |labF t - labF (x / c)| ≤ 1e-6 := by
  have q0 : 0 ≤ x / c := by positivity
  obtain ⟨t, h1, h2⟩ := fdiv c c0 (near_fin x) 1.0009 (by rw [abs_of_nonneg q0]; exact h) (by norm_num) (by rw [zero_div]; norm_num) 1.21e-7 (by rw [zero_div]; norm_num)
  have t0 : 0 ≤ t := by
    have := FloatModel.rnd_mono 0 (x / c) q0
    rw [FloatModel.rnd_zero, ← fin_div _ _ c0.ne', h1, fin_le] at this
    exact this
  refine ⟨t, h1, t0, h2, (labF_lip t0 q0).trans ?_⟩
  norm_num at *
  linarith

/-- L is kept between 0 and 100. -/
theorem lightness {f ζ : ℝ} (h0 : 4 / 29 - 6e-7 ≤ f) (h1 : f ≤ 1.001) (hζ : 7.2e-5 ≤ ζ) (hz : 116 * f - 16 ≤ 100 + ζ) :
    ∃ L, Color.clamp (116 * fin f - 16) 100 0 = fin L ∧ 0 ≤ L ∧ L ≤ 100 ∧ |(L + 16) / 116 - f| ≤ ζ / 116 := by
  have m1 := fmul 116 (by norm_num) (near_fin f) 117 (by rw [abs_of_nonneg (by norm_num at *; linarith)]; norm_num at *; linarith) (by norm_num) (by norm_num) 1.5e-5 (by norm_num)
  obtain ⟨L0, e, h⟩ := fsub m1 (near_fin 16) 101 (by rw [abs_le]; norm_num at *; constructor <;> linarith) (by norm_num) (by norm_num) 2.8e-5 (by norm_num)
  refine ⟨max (min L0 100) 0, ?_, le_max_right _ _, max_le (min_le_right _ _) (by norm_num), ?_⟩
  · rw [lit_def, lit_def, e, lit_def, zero_def, Color.clamp_fin]
  · rw [show (max (min L0 100) 0 + 16) / 116 - f = (max (min L0 100) 0 - (116 * f - 16)) / 116 by ring, abs_div, abs_of_pos (show (0 : ℝ) < 116 by norm_num)]
    refine div_le_div_of_nonneg_right ?_ (by norm_num)
    rw [abs_le] at *
    rcases le_total L0 100 with g1 | g1
    · rw [min_eq_left g1]
      rcases le_total L0 0 with g2 | g2
      · rw [max_eq_right g2]; norm_num at *; constructor <;> linarith
      · rw [max_eq_left g2]; norm_num at *; constructor <;> linarith
    · rw [min_eq_right g1, max_eq_left (by norm_num)]; norm_num at *; constructor <;> linarith

/-- a and b, which are not limited here. -/
theorem opponent {f g c M : ℝ} (c0' : 1 ≤ c) (c1 : c ≤ 500) (h : |f - g| ≤ M) (hM : 1e-3 ≤ M) (hM1 : M ≤ 0.65) (hc : c * M ≤ 127.999) :
    ∃ a, Color.clamp (fin c * (fin f - fin g)) 128 (-128) = fin a ∧ |a / c - (f - g)| ≤ 1.6e-7 ∧ |a / c| ≤ 0.66 := by
  have c0 : 0 < c := by linarith
  obtain ⟨d, e1, h1⟩ := fsub (near_fin f) (near_fin g) M h (by norm_num at *; linarith) (by norm_num at *; linarith) (M * 1.2e-7) (by linarith)
  have hcM : 0 ≤ c * M := by positivity
  obtain ⟨a, e2, h2⟩ := fmul c c0.le ⟨d, e1, h1⟩ (c * M) (by rw [abs_mul, abs_of_pos c0]; gcongr) (by norm_num at *; nlinarith) (by norm_num at *; nlinarith) (c * M * 2.41e-7)
    (by norm_num at *; nlinarith)
  have h3 : |a / c - (f - g)| ≤ 1.6e-7 := by
    rw [div_sub' c0.ne', abs_div, abs_of_pos c0, div_le_iff₀ c0]
    refine h2.trans ?_
    have : M * c ≤ 0.65 * c := by gcongr
    norm_num at *
    linarith
  refine ⟨a, ?_, h3, ?_⟩
  · rw [e2]
    have hm : (-128 : Fl) = fin (-128) := by simp
    have ha : |a| ≤ 128 := by
      have h4 : |c * (f - g)| ≤ c * M := by rw [abs_mul, abs_of_pos c0]; gcongr
      rw [abs_le] at *
      norm_num at *
      constructor <;> linarith
    rw [abs_le] at ha
    rw [hm]
    simp [Color.clamp_fin, ha.1, ha.2]
  · rw [abs_le] at *
    norm_num at *
    constructor <;> linarith

/-- The argument of the inverse of `f` for X and Z. -/
theorem argument {a c L : ℝ} (c0 : 0 < c) (ha : |a / c| ≤ 0.66) (L0 : 0 ≤ L) (L1 : L ≤ 100) :
    (|a / c + (L + 16) / 116| ≤ 1.01 → Near (fin a / fin c + (fin L + 16) / 116) (a / c + (L + 16) / 116) 4.5e-7) ∧
      (|(L + 16) / 116 - a / c| ≤ 1.01 → Near ((fin L + 16) / 116 - fin a / fin c) ((L + 16) / 116 - a / c) 4.5e-7) := by
  have m1 := fadd (near_fin L) (near_fin 16) 116 (by rw [abs_of_nonneg (by positivity)]; linarith) (by norm_num) (by norm_num) 1.4e-5 (by norm_num)
  have m2 := fdiv 116 (by norm_num) m1 1 (by rw [abs_of_nonneg (by positivity), div_le_one (by norm_num)]; linarith) (by norm_num) (by norm_num) 2.42e-7 (by norm_num)
  have m3 := fdiv c c0 (near_fin a) 0.66 ha (by norm_num) (by rw [zero_div]; norm_num) 8e-8 (by rw [zero_div]; norm_num)
  rw [lit_def, lit_def]
  exact ⟨fun hs => fadd m3 m2 1.01 hs (by norm_num) (by norm_num) _ (by norm_num), fun hd => fsub m2 m3 1.01 hd (by norm_num) (by norm_num) _ (by norm_num)⟩

/-- X or Z from its argument. -/
theorem component {X : Fl} {v t x c ζ : ℝ} (hX : Near X v 4.5e-7) (hv : |v - labF t| ≤ ζ / 116 + 7.6e-7) (hζ0 : 0 ≤ ζ) (hζ : ζ ≤ 0.02) (t0 : 0 ≤ t) (x0 : 0 ≤ x) (c0 : 0 < c) (c1 : c ≤ 1.09)
    (hx : x / c ≤ 1.0009) (ht : |t - x / c| ≤ 1.21e-7) : ∃ y, Color.clamp (Leaf.labToXZ X * fin c) 100 0 = fin y ∧ 0 ≤ y ∧ |y - x| ≤ 0.0295 * ζ + 4.8e-6 := by
  obtain ⟨u, rfl, hu⟩ := hX
  have hlow := labF_low t0
  have hhigh := labF_one_add t0 (δ := 0.001) (by norm_num) (by rw [abs_le] at ht; norm_num at *; linarith)
  have hu2 : |u - labF t| ≤ ζ / 116 + 1.21e-6 := by
    have := abs_sub_le u v (labF t)
    norm_num at *; linarith
  have hu3 := abs_le.mp hu2
  have hn := labToXZ_near (v := u) (by norm_num at *; linarith) (by norm_num at *; linarith)
  have hl := labG_lip (u := u) (v := labF t) (by norm_num at *; linarith) (by norm_num at *; linarith)
  rw [labG_labF t0] at hl
  obtain ⟨k, ek, hk⟩ := hn
  have hk2 : |k - x / c| ≤ 0.02699 * ζ + 4.18e-6 := by
    have h1 := abs_sub_le k (labG u) t
    have h2 := abs_sub_le k t (x / c)
    norm_num at *; linarith
  have xc := div_mul_cancel₀ x c0.ne'
  have q0 : 0 ≤ x / c := by positivity
  have x1 : x ≤ 1.1 := by rw [← xc]; norm_num at *; nlinarith
  have hm := fmul' c c0.le ⟨k, ek, hk2⟩ 1.1 (by rw [xc, abs_of_nonneg x0]; exact x1) (by norm_num) (by norm_num at *; nlinarith) (0.0295 * ζ + 4.8e-6) (by norm_num at *; nlinarith)
  rw [xc] at hm
  obtain ⟨y, h1, h2, h3, -⟩ := Fine.clamp_hundred hm (by positivity) le_rfl (by linarith) (by norm_num at *; linarith)
  exact ⟨y, h1, h3, by rw [add_zero] at h2; exact h2⟩

theorem component_y {L t x c ζ : ℝ} (L0 : 0 ≤ L) (L1 : L ≤ 100) (hv : |(L + 16) / 116 - labF t| ≤ ζ / 116 + 6e-7) (hζ0 : 0 ≤ ζ) (hζ : ζ ≤ 0.02) (t0 : 0 ≤ t) (x0 : 0 ≤ x)
    (c0 : 0 < c) (c1 : c ≤ 1.09) (hx : x / c ≤ 1.0009) (ht : |t - x / c| ≤ 1.21e-7) :
    ∃ y, Color.clamp (Leaf.labToY (fin L) * fin c) 100 0 = fin y ∧ 0 ≤ y ∧ |y - x| ≤ 0.0295 * ζ + 4.8e-6 := by
  have hhigh := labF_one_add t0 (δ := 0.001) (by norm_num) (by rw [abs_le] at ht; norm_num at *; linarith)
  obtain ⟨k, ek, hk⟩ := labToY_near L0 L1
  have hl := labG_lip (u := (L + 16) / 116) (v := labF t) (by rw [div_le_iff₀ (by norm_num)]; norm_num; linarith) (by norm_num at *; linarith)
  rw [labG_labF t0] at hl
  have hk2 : |k - x / c| ≤ 0.02699 * ζ + 4.18e-6 := by
    have h1 := abs_sub_le k (labG ((L + 16) / 116)) t
    have h2 := abs_sub_le k t (x / c)
    norm_num at *; linarith
  have xc := div_mul_cancel₀ x c0.ne'
  have q0 : 0 ≤ x / c := by positivity
  have x1 : x ≤ 1.1 := by rw [← xc]; norm_num at *; nlinarith
  have hm := fmul' c c0.le ⟨k, ek, hk2⟩ 1.1 (by rw [xc, abs_of_nonneg x0]; exact x1) (by norm_num) (by norm_num at *; nlinarith) (0.0295 * ζ + 4.8e-6) (by norm_num at *; nlinarith)
  rw [xc] at hm
  obtain ⟨y, h1, h2, h3, -⟩ := Fine.clamp_hundred hm (by positivity) le_rfl (by linarith) (by norm_num at *; linarith)
  exact ⟨y, h1, h3, by rw [add_zero] at h2; exact h2⟩

set_option maxHeartbeats 800000 in
/-- XYZ → LAB → XYZ: no component moves by more than 7.1e-6, if Y does not exceed that of the white point; a little more otherwise. -/
theorem lab_round (w : World) (s q : Nat) (hq : (w.spaces s).white = some q) {wx wy wz : ℝ} (ht : (w.whites q).tri = ⟨fin wx, fin wy, fin wz⟩) (px : 0 < wx) (py : 0 < wy) (pz : 0 < wz)
    (ux : wx ≤ 1.09) (uy : wy ≤ 1.09) (uz : wz ≤ 1.09) {x y z a : ℝ} (x0 : 0 ≤ x) (y0 : 0 ≤ y) (z0 : 0 ≤ z) (a0 : 0 ≤ a) (a1 : a ≤ 1) (x1 : x / wx ≤ 1.0009) (z1 : z / wz ≤ 1.0009) (η : ℝ)
    (hη : 0 ≤ η) (hη1 : η ≤ 3e-4) (y1 : y / wy ≤ 1 + η) (hA : |labF (x / wx) - labF (y / wy)| ≤ 0.2559) (hB : |labF (y / wy) - labF (z / wz)| ≤ 0.6399) :
    ∃ L A B x' y' z', Leaf.xyz_to_lab w (obj .xyz x y z (fin a) (some s)) = ok (obj .lab L A B (fin a) (some s)) ∧
      Leaf.lab_to_xyz w (obj .lab L A B (fin a) (some s)) = ok (obj .xyz x' y' z' (fin a) (some s)) ∧ 0 ≤ x' ∧ 0 ≤ y' ∧ 0 ≤ z' ∧
      |x' - x| ≤ 1.15 * η + 7.1e-6 ∧ |y' - y| ≤ 1.15 * η + 7.1e-6 ∧ |z' - z| ≤ 1.15 * η + 7.1e-6 := by
  have y1' : y / wy ≤ 1.0009 := by norm_num at *; linarith
  obtain ⟨tx, ex, tx0, htx, ftx⟩ := quotient x0 px x1
  obtain ⟨ty, ey, ty0, hty, fty⟩ := quotient y0 py y1'
  obtain ⟨tz, ez, tz0, htz, ftz⟩ := quotient z0 pz z1
  have lim : ∀ {t r : ℝ}, |t - r| ≤ 1.21e-7 → r ≤ 1.0009 → t ≤ 1.001 := by
    intro t r h1 h2; rw [abs_le] at h1; norm_num at *; linarith
  obtain ⟨fx, efx, hfx⟩ := xyzToLab_near tx0 (lim htx x1)
  obtain ⟨fy, efy, hfy⟩ := xyzToLab_near ty0 (lim hty y1')
  obtain ⟨fz, efz, hfz⟩ := xyzToLab_near tz0 (lim htz z1)
  have lx := labF_low tx0; have ly := labF_low ty0; have lz := labF_low tz0
  have hx := labF_one_add tx0 (δ := 0.001) (by norm_num) (by have := lim htx x1; norm_num at *; linarith)
  have hz := labF_one_add tz0 (δ := 0.001) (by norm_num) (by have := lim htz z1; norm_num at *; linarith)
  have hy := labF_one_add ty0 (δ := η + 1.21e-7) (by positivity) (by rw [abs_le] at hty; linarith)
  set ζ : ℝ := 38.7 * η + 7.6e-5 with hζ
  have hζ0 : 0 ≤ ζ := by positivity
  have hζ1 : ζ ≤ 0.02 := by norm_num at *; linarith
  have hζ2 : 0.0295 * ζ + 4.8e-6 ≤ 1.15 * η + 7.1e-6 := by norm_num at *; linarith
  obtain ⟨L, eL, L0, L1, hL⟩ := lightness (f := fy) (ζ := ζ) (by rw [abs_le] at hfy; linarith) (by rw [abs_le] at hfy; norm_num at *; linarith) (by norm_num at *; linarith)
    (by rw [abs_le] at hfy; norm_num at *; linarith)
  have hAf : |fx - fy| ≤ 0.25591 := by rw [abs_le] at *; norm_num at *; constructor <;> linarith
  have hBf : |fy - fz| ≤ 0.63991 := by rw [abs_le] at *; norm_num at *; constructor <;> linarith
  obtain ⟨A, eA, hA1, hA2⟩ := opponent (c := 500) (by norm_num) (by norm_num) hAf (by norm_num) (by norm_num) (by norm_num)
  obtain ⟨B, eB, hB1, hB2⟩ := opponent (c := 200) (by norm_num) (by norm_num) hBf (by norm_num) (by norm_num) (by norm_num)
  have vx : |A / 500 + (L + 16) / 116 - labF tx| ≤ ζ / 116 + 7.6e-7 := by
    rw [show A / 500 + (L + 16) / 116 - labF tx = (A / 500 - (fx - fy)) + ((L + 16) / 116 - fy) + (fx - labF tx) by ring]
    refine (abs_add_le _ _).trans ((add_le_add (abs_add_le _ _) le_rfl).trans ?_)
    norm_num at *; linarith
  have vz : |(L + 16) / 116 - B / 200 - labF tz| ≤ ζ / 116 + 7.6e-7 := by
    rw [show (L + 16) / 116 - B / 200 - labF tz = ((L + 16) / 116 - fy) - (B / 200 - (fy - fz)) + (fz - labF tz) by ring]
    refine (abs_add_le _ _).trans ((add_le_add (abs_sub _ _) le_rfl).trans ?_)
    norm_num at *; linarith
  have vy : |(L + 16) / 116 - labF ty| ≤ ζ / 116 + 6e-7 := by
    have := abs_sub_le ((L + 16) / 116) fy (labF ty)
    linarith
  have l16 : 0 ≤ (L + 16) / 116 ∧ (L + 16) / 116 ≤ 1 := ⟨by positivity, by rw [div_le_one (by norm_num)]; linarith⟩
  have bx : |A / 500 + (L + 16) / 116| ≤ 1.01 := by
    rw [abs_le] at vx ⊢; norm_num at *; constructor <;> linarith
  have bz : |(L + 16) / 116 - B / 200| ≤ 1.01 := by
    rw [abs_le] at vz ⊢; norm_num at *; constructor <;> linarith
  have nx := (argument (c := 500) (by norm_num) hA2 L0 L1).1 bx
  have nz := (argument (c := 200) (by norm_num) hB2 L0 L1).2 bz
  obtain ⟨x', cx, x0', hx'⟩ := component nx vx hζ0 hζ1 tx0 x0 px ux x1 htx
  obtain ⟨y', cy, y0', hy'⟩ := component_y L0 L1 vy hζ0 hζ1 ty0 y0 py uy y1' hty
  obtain ⟨z', cz, z0', hz'⟩ := component nz vz hζ0 hζ1 tz0 z0 pz uz z1 htz
  have hal : Color.clamp (fin a) 1 0 = fin a := clamp01 a0 a1
  refine ⟨L, A, B, x', y', z', ?_, ?_, x0', y0', z0', hx'.trans hζ2, hy'.trans hζ2, hz'.trans hζ2⟩
  · simp only [Leaf.xyz_to_lab, obj_0, obj_1, obj_2, obj_space, obj_malpha, obj_alpha _ _ _ _ _ _ (rfl : Color.scalesAlpha .xyz = false), ok_bind, World.space, World.white, hq, ht,
      Color.construct_lab, ex, ey, ez, efx, efy, efz]
    simp only [lit_def] at eL eA eB
    simp only [lit_def, Color.mkLab, Color.setAlpha, Color.scalesAlpha, Bool.false_eq_true, if_false, hal, eL, eA, eB]
    simp [obj, Color.maxOf, Color.minOf]
  · simp only [lit_def] at cx cy cz
    simp only [Leaf.lab_to_xyz, obj_0, obj_1, obj_2, obj_space, obj_malpha, obj_alpha _ _ _ _ _ _ (rfl : Color.scalesAlpha .lab = false), ok_bind, World.space, World.white, hq, ht,
      Color.construct_xyz, Color.mkXyz, lit_def, cx, cy, cz]
    simp only [Color.setAlpha, obj, Color.scalesAlpha, Bool.false_eq_true, if_false, hal]
    simp [obj, Color.maxOf, Color.minOf]

end FineLab

import Verif.FineLab
import Verif.FineLabLinear

/-!
# XYZ → xyY → XYZ in single precision
-/

open Outcome Fl Hue

/-- The presets in which every primary has a luminance: all but `cieXYZ`, and `cieRGB` whose red has a negative one. -/
def FineXyy.Lit (p : SpacePreset) : Prop := p ≠ .cieRGB ∧ p ≠ .cieXYZ

namespace Fine

theorem trip_xyy (p : SpacePreset) (hp : FineXyy.Lit p) (i : Fin 3) :
    padj (coef p) i 0 * ((coef p 0 0 + coef p 0 1 + coef p 0 2) * 3.936e-6 + 3 * neg p + 2.501e-6) +
    padj (coef p) i 1 * ((coef p 1 0 + coef p 1 1 + coef p 1 2) * 3.936e-6 + 3 * neg p + 2.501e-6) +
    padj (coef p) i 2 * ((coef p 2 0 + coef p 2 1 + coef p 2 2) * 3.936e-6 + 3 * neg p + 2.501e-6) ≤ (if p = .dci_p3 then 9.3e-5 else 6.4e-5) * det2 p := by
  obtain ⟨h1, h2⟩ := hp
  cases p <;> first | exact absurd rfl h1 | exact absurd rfl h2 | (fin_cases i <;> simp only [reduceCtorEq, if_true, if_false] <;> lab_numbers)

theorem sum_xyy (p : SpacePreset) (hp : FineXyy.Lit p) : (coef p 0 0 + coef p 0 1 + coef p 0 2) * 1.000001 ≤ 1.2 ∧ (coef p 1 0 + coef p 1 1 + coef p 1 2) * 1.000001 ≤ 1.01 ∧
    (coef p 2 0 + coef p 2 1 + coef p 2 2) * 1.000001 ≤ 1.2 ∧
    (coef p 0 0 + coef p 0 1 + coef p 0 2) * 1.000001 + (coef p 1 0 + coef p 1 1 + coef p 1 2) * 1.000001 + (coef p 2 0 + coef p 2 1 + coef p 2 2) * 1.000001 ≤ 3.17 := by
  obtain ⟨h1, h2⟩ := hp
  cases p <;> first | exact absurd rfl h1 | exact absurd rfl h2 | (refine ⟨?_, ?_, ?_, ?_⟩ <;> lab_numbers)

theorem low_xyy (p : SpacePreset) (hp : FineXyy.Lit p) (j : Fin 3) : 8e-5 ≤ presetPrimaries p 1 j * low p j - mag p 1 j * wide p j * 5.16e-5 := by
  obtain ⟨h1, h2⟩ := hp
  cases p <;> first | exact absurd rfl h1 | exact absurd rfl h2 | (fin_cases j <;> (simp only [low]; lab_numbers))

end Fine

namespace FineXyy
variable [FloatModel] [FineError]

/-- The sum of three components. -/
theorem sum_appr {x y z : ℝ} (x0 : 0 ≤ x) (y0 : 1e-9 ≤ y) (z0 : 0 ≤ z) (hS : x + y + z ≤ 3.17) : Appr (fin x + fin y + fin z) (x + y + z) (x + y + z) 2 := by
  have y0' : 0 ≤ y := le_trans (by norm_num) y0
  have e1 := Appr.add (Appr.exact (abs_of_nonneg x0).le) (Appr.exact (abs_of_nonneg y0').le) 0 le_rfl le_rfl (by norm_num) (by norm_num at *; linarith) (by norm_num at *; linarith)
  have e2 := Appr.add e1 (Appr.exact (abs_of_nonneg z0).le) 1 (by norm_num) (by norm_num) (by norm_num) (by norm_num at *; linarith) (by norm_num at *; linarith)
  exact e2.weaken le_rfl (by norm_num)

/-- A chromaticity. -/
theorem chrom_appr {v S A : ℝ} {s : Fl} (v0 : 0 ≤ v) (hv : v ≤ A) (hA : 1e-15 ≤ A) (hA1 : A ≤ 2 * S) (S0 : 1e-9 ≤ S) (hs : Appr s S S 2) (hS : S ≤ 3.17) :
    Appr (fin v / s) (v / S) (A / S) 3.2 := by
  have S0' : 0 < S := lt_of_lt_of_le (by norm_num) S0
  have := Appr.div (Appr.exact ((abs_of_nonneg v0).le.trans hv)) hs S 1 S0' (abs_of_pos S0').ge (by linarith) (by norm_num)
    (by rw [le_div_iff₀ S0']; norm_num at *; linarith) (by rw [div_le_iff₀ S0']; linarith)
  exact this.weaken le_rfl (by norm_num)

/-- A component computed back from a chromaticity. -/
theorem back_appr {c v S A y : ℝ} {t u : Fl} {k : ℝ} (hk : k ≤ 10) (ht : Appr t c A k) (hA : 1e-11 ≤ A) (hA1 : A ≤ 3) (y0 : 1e-9 ≤ y) (y1 : y ≤ 1.01) (S0 : y ≤ S) (hS : S ≤ 3.17)
    (hu : Appr u (y / S) (y / S) 3.2) (hv : c * S = v) : Appr (t * fin y / u) v (A * S) (k + 5.6) := by
  have y0' : 0 < y := lt_of_lt_of_le (by norm_num) y0
  have S0' : 0 < S := by linarith
  have k0 := ht.k0
  have hAy := mul_le_mul hA y0 (by norm_num) (le_trans (by norm_num) hA)
  have hAS := mul_le_mul hA (y0.trans S0) (by norm_num) (le_trans (by norm_num) hA)
  have e1 := Appr.mul ht (Appr.exact (abs_of_pos y0').le) (by linarith) (by norm_num) (by norm_num at *; linarith) (by norm_num at *; nlinarith)
  have hβ : 0 < y / S := by positivity
  have hq : A * y / (y / S) = A * S := by field_simp
  have e2 := Appr.div e1 hu (y / S) 1 hβ (abs_of_pos hβ).ge (by linarith) (by linarith) (by rw [hq]; norm_num at *; linarith) (by rw [hq]; nlinarith)
  rw [hq, show c * y / (y / S) = v by rw [← hv]; field_simp] at e2
  exact e2.weaken le_rfl (by linarith)

set_option maxHeartbeats 1600000 in
/-- XYZ → xyY → XYZ moves no component by more than 2.5e-6. -/
theorem xyy_round (w : World) (sp : Option Nat) (al : Fl) {x y z : ℝ} (x0 : 0 ≤ x) (y0 : 1e-9 ≤ y) (z0 : 0 ≤ z) (x1 : x ≤ 1.2) (y1 : y ≤ 1.01) (z1 : z ≤ 1.2) (hS : x + y + z ≤ 3.17) :
    ∃ a b x' z', Leaf.xyz_to_xyy w (obj .xyz x y z al sp) = ok (obj .xyy a b y al sp) ∧ Leaf.xyy_to_xyz (obj .xyy a b y al sp) = ok (obj .xyz x' y z' al sp) ∧
      0 ≤ x' ∧ 0 ≤ z' ∧ |x' - x| ≤ 2.5e-6 ∧ |z' - z| ≤ 2.5e-6 := by
  have y0' : 0 < y := lt_of_lt_of_le (by norm_num) y0
  have S0 : 1e-9 ≤ x + y + z := by linarith
  have hs := sum_appr x0 y0 z0 hS
  set S := x + y + z with hSdef
  have S0' : 0 < S := by linarith
  have hxc := chrom_appr (A := x + 1e-13) x0 (by norm_num) (by norm_num at *; linarith) (by norm_num at *; linarith) S0 hs hS
  have hyc := chrom_appr (A := y) y0'.le le_rfl (by norm_num at *; linarith) (by linarith) S0 hs hS
  obtain ⟨a, ea, ha⟩ := hxc.near
  obtain ⟨b, eb, hb⟩ := hyc.near
  obtain ⟨σ, eσ, hσ⟩ := hs.near
  have σ0 : 0 < σ := by have := abs_le.mp hσ; norm_num at *; linarith
  have a0 : 0 ≤ a := by
    have h1 := FloatModel.rnd_mono _ _ (div_nonneg x0 σ0.le)
    rw [FloatModel.rnd_zero] at h1
    rw [eσ, fin_div _ _ σ0.ne'] at ea
    rwa [ea, fin_le] at h1
  -- the chromaticities
  have hX0 : 0 ≤ x / S := by positivity
  have hY0 : 0 < y / S := by positivity
  have hZ0 : 0 ≤ z / S := by positivity
  have hsum : x / S + y / S + z / S = 1 := by rw [← add_div, ← add_div, ← hSdef, div_self S0'.ne']
  have hxS : (x + 1e-13) / S ≤ x / S + 1e-4 := by
    rw [add_div]
    have : 1e-13 / S ≤ 1e-4 := by rw [div_le_iff₀ S0']; norm_num at *; linarith
    linarith
  have ha' : |a - x / S| ≤ 3.2 * (x / S + 1e-4) * 1.2e-7 := ha.trans (by gcongr)
  have b0 : 0 < b := by have := abs_le.mp hb; norm_num at *; linarith
  have hX1 : x / S ≤ 1 := by linarith
  have hY1 : y / S ≤ 1 := by linarith
  have hZ1 : z / S ≤ 1 := by linarith
  set X := x / S with hX
  set Y := y / S with hY
  set Z := z / S with hZ
  have ha2 := abs_le.mp ha'; have hb2 := abs_le.mp hb
  -- 1 - x - y
  have round : ∀ (r B : ℝ), |r| ≤ B → B ≤ 2 → ∃ p, rnd r = fin p ∧ |p - r| ≤ B * 1.2e-7 + 1e-25 := by
    intro r B h1 h2
    obtain ⟨p, e, h⟩ := FineError.rnd_near r ((h1.trans h2).trans (by norm_num))
    refine ⟨p, e, h.trans ?_⟩
    have : |r| / 2 ^ 23 ≤ B / 2 ^ 23 := by gcongr
    have := (abs_nonneg r).trans h1
    norm_num at *; linarith
  obtain ⟨p, ep, hp⟩ := round (1 - a) (1 - X + 1e-6) (by rw [abs_le]; constructor <;> (norm_num at *; linarith)) (by norm_num at *; linarith)
  have hp2 := abs_le.mp hp
  obtain ⟨v, ev, hv⟩ := round (p - b) (Z + 2e-6) (by rw [abs_le]; constructor <;> (norm_num at *; linarith)) (by norm_num at *; linarith)
  have hv2 := abs_le.mp hv
  have hvz : |v - Z| ≤ 5.05e-7 := by
    rw [abs_le]; constructor <;> (norm_num at *; linarith)
  have hvz2 := abs_le.mp hvz
  have hvb : |v| ≤ Z + 5.05e-7 := by rw [abs_le]; constructor <;> (norm_num at *; linarith)
  -- the way back
  have hxz : X * S = x := by rw [hX]; exact div_mul_cancel₀ _ S0'.ne'
  have hzz : Z * S = z := by rw [hZ]; exact div_mul_cancel₀ _ S0'.ne'
  have e1 := back_appr (v := x) (A := X + 1e-10 + 1e-4) (k := 3.2) (by norm_num) ((ea ▸ hxc).weaken (by norm_num at *; linarith) le_rfl) (by norm_num at *; linarith) (by norm_num at *; linarith) y0 y1 (by linarith) hS (eb ▸ hyc) hxz
  have e2 := back_appr (v := v * S) (A := Z + 5.05e-7) (k := 0) (by norm_num) (Appr.exact hvb) (by norm_num at *; linarith) (by norm_num at *; linarith) y0 y1 (by linarith) hS (eb ▸ hyc) rfl
  have hb1 : (X + 1e-10 + 1e-4) * S ≤ x + 4e-4 := by
    have e : (X + 1e-10 + 1e-4) * S = X * S + (1e-10 + 1e-4) * S := by ring
    rw [e, hxz]; norm_num at *; linarith
  have hb3 : (Z + 5.05e-7) * S ≤ z + 2e-6 := by
    have e : (Z + 5.05e-7) * S = Z * S + 5.05e-7 * S := by ring
    rw [e, hzz]; norm_num at *; linarith
  replace e1 := e1.weaken hb1 (le_refl _)
  replace e2 := e2.weaken hb3 (le_refl _)
  obtain ⟨x', ex, hx', x0', -⟩ := Fine.clamp_hundred e1.near (by have := e1.B0; positivity) le_rfl (by linarith) (by norm_num at *; linarith)
  have hn2 : Near (fin v * fin y / fin b) z (1.62e-6 + 8.2e-7) := by
    obtain ⟨r, er, hr⟩ := e2.near
    refine ⟨r, er, ?_⟩
    have h1 : |v * S - z| ≤ 1.62e-6 := by
      rw [← hzz, ← sub_mul, abs_mul, abs_of_pos S0']
      calc |v - Z| * S ≤ 5.05e-7 * 3.17 := mul_le_mul hvz hS S0'.le (by norm_num)
        _ ≤ 1.62e-6 := by norm_num
    have h2 : (0 + 5.6) * (z + 2e-6) * 1.2e-7 ≤ 8.2e-7 := by norm_num at *; linarith
    have := abs_sub_le r (v * S) z
    linarith
  obtain ⟨z', ez, hz', z0', -⟩ := Fine.clamp_hundred hn2 (by norm_num) le_rfl (by linarith) (by norm_num at *; linarith)
  refine ⟨a, b, x', z', ?_, ?_, x0', z0', ?_, ?_⟩
  · have hc : ∀ {t : ℝ}, 0 ≤ t → t ≤ 100 → Color.clamp (fin t) 100 0 = fin t := by
      intro t h0 h1
      rw [show (100 : Fl) = fin 100 by simp, zero_def, Color.clamp_fin, min_eq_left h1, max_eq_left h0]
    simp only [Leaf.xyz_to_xyy, obj_0, obj_1, obj_2, obj_space, ok_bind, obj_alpha _ _ _ _ _ _ (rfl : Color.scalesAlpha .xyz = false)]
    rw [if_neg (by rintro ⟨-, h, -⟩; rw [zero_def, feq_fin] at h; exact y0'.ne' h), Color.construct_xyy, ea, eb]
    simp only [Color.mkXyz, hc a0 (by norm_num at *; linarith), hc b0.le (by norm_num at *; linarith), hc y0'.le (by norm_num at *; linarith), obj, Color.maxOf, Color.minOf]
  · have hc : Color.clamp (fin y) 100 0 = fin y := by
      rw [show (100 : Fl) = fin 100 by simp, zero_def, Color.clamp_fin, min_eq_left (by norm_num at *; linarith), max_eq_left y0'.le]
    simp only [Leaf.xyy_to_xyz, obj_0, obj_1, obj_2, obj_space, ok_bind, obj_alpha _ _ _ _ _ _ (rfl : Color.scalesAlpha .xyy = false)]
    rw [if_neg (by intro h; rw [zero_def, feq_fin] at h; exact b0.ne' h), Color.construct_xyz, one_def, fin_sub, ep, fin_sub, ev]
    simp only [Color.mkXyz, ex, ez, hc, obj, Color.maxOf, Color.minOf]
  · refine hx'.trans ?_
    norm_num at *; linarith
  · exact hz'.trans (by norm_num)

end FineXyy

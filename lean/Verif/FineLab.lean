import Verif.FineGamma
import Verif.LabGamutLemmas

/-!
# XYZ to LAB and back in single precision
-/

open Outcome Fl ConvSpec

namespace FineLab

/-! ## The inverse of `f` -/

/-- The inverse of the function `f` of LAB. -/
noncomputable def labG (v : ℝ) : ℝ := if 6 / 29 < v then v ^ 3 else 108 / 841 * (v - 4 / 29)

theorem labG_labF {t : ℝ} (h : 0 ≤ t) : labG (labF t) = t := by
  unfold labG
  rcases labF_cases h with ⟨h1, h2, -⟩ | ⟨-, h2, h3⟩
  · rw [if_pos h1, h2]
  · rw [if_neg (not_lt.mpr h2), h3]; ring

theorem labG_lip {u v : ℝ} (hu : u ≤ 1.02) (hv : v ≤ 1.02) : |labG u - labG v| ≤ 3.13 * |u - v| := by
  have key : ∀ u v : ℝ, v ≤ u → u ≤ 1.02 → 0 ≤ labG u - labG v ∧ labG u - labG v ≤ 3.13 * (u - v) := by
    intro u v huv hu
    have d : 0 ≤ u - v := by linarith
    unfold labG
    split
    · rename_i h1
      split
      · rename_i h2
        have e : u ^ 3 - v ^ 3 = (u ^ 2 + u * v + v ^ 2) * (u - v) := by ring
        rw [e]
        constructor
        · have : 0 ≤ u ^ 2 + u * v + v ^ 2 := by nlinarith [mul_nonneg (show 0 ≤ u by linarith) (show 0 ≤ v by linarith)]
          positivity
        · refine mul_le_mul_of_nonneg_right ?_ d
          nlinarith
      · rename_i h2
        push Not at h2
        have e : u ^ 3 - (6 / 29) ^ 3 = (u ^ 2 + u * (6 / 29) + (6 / 29) ^ 2) * (u - 6 / 29) := by ring
        have e1 : 0 ≤ u ^ 2 + u * (6 / 29) + (6 / 29) ^ 2 := by nlinarith
        have e2 : u ^ 2 + u * (6 / 29) + (6 / 29) ^ 2 ≤ 3.13 := by nlinarith
        have d1 : 0 ≤ u - 6 / 29 := by linarith
        have m1 := mul_nonneg e1 d1
        have m2 := mul_le_mul_of_nonneg_right e2 d1
        constructor <;> nlinarith
    · rename_i h1
      push Not at h1
      rw [if_neg (by linarith)]
      constructor <;> linarith
  rcases le_total v u with h | h
  · obtain ⟨h0, h1⟩ := key u v h hu
    rw [abs_of_nonneg h0, abs_of_nonneg (by linarith : 0 ≤ u - v)]
    exact h1
  · obtain ⟨h0, h1⟩ := key v u h hv
    rw [abs_sub_comm, abs_of_nonneg h0, abs_sub_comm, abs_of_nonneg (by linarith : 0 ≤ v - u)]
    exact h1

/-- Close to the knee the cube and the straight line agree. -/
theorem knee {v : ℝ} (h0 : 0.206 ≤ v) (h1 : v ≤ 0.208) (e : ℝ) (he : |v - 6 / 29| ≤ e) : |v ^ 3 - 108 / 841 * (v - 4 / 29)| ≤ e ^ 2 := by
  have h : v ^ 3 - 108 / 841 * (v - 4 / 29) = (v - 6 / 29) ^ 2 * (v + 12 / 29) := by ring
  rw [h, abs_of_nonneg (mul_nonneg (sq_nonneg _) (by linarith))]
  have : (v - 6 / 29) ^ 2 ≤ e ^ 2 := by rw [← sq_abs]; exact pow_le_pow_left₀ (abs_nonneg _) he 2
  nlinarith [sq_nonneg (v - 6 / 29)]

theorem labF_mono {s t : ℝ} (h0 : 0 ≤ s) (h : s ≤ t) : labF s ≤ labF t := by
  rcases labF_cases h0 with ⟨a1, a2, a3⟩ | ⟨a1, a2, a3⟩ <;> rcases labF_cases (h0.trans h) with ⟨b1, b2, b3⟩ | ⟨b1, b2, b3⟩
  · by_contra hh
    push Not at hh
    have := pow_lt_pow_left₀ hh (by linarith) (n := 3) (by norm_num)
    linarith
  · exfalso; norm_num at a3; linarith
  · linarith
  · rw [a3, b3]; linarith

/-- The slope of `f` is at most 7.8. -/
theorem labF_lip {s t : ℝ} (hs : 0 ≤ s) (ht : 0 ≤ t) : |labF s - labF t| ≤ 841 / 108 * |s - t| := by
  have key : ∀ s t : ℝ, 0 ≤ s → s ≤ t → labF t - labF s ≤ 841 / 108 * (t - s) := by
    intro s t h0 h
    rcases labF_cases h0 with ⟨a1, a2, a3⟩ | ⟨a1, a2, a3⟩ <;> rcases labF_cases (h0.trans h) with ⟨b1, b2, b3⟩ | ⟨b1, b2, b3⟩
    · have hm := labF_mono h0 h
      have := mul_nonneg (sub_nonneg.mpr hm) (show (0 : ℝ) ≤ labF t ^ 2 + labF t * labF s + labF s ^ 2 - 108 / 841 by nlinarith)
      have e : labF t ^ 3 - labF s ^ 3 = (labF t - labF s) * (labF t ^ 2 + labF t * labF s + labF s ^ 2) := by ring
      rw [a2, b2] at e
      linarith
    · exfalso; norm_num at a3; linarith
    · have : labF t - 6 / 29 ≤ 841 / 108 * (t - (6 / 29) ^ 3) := by
        have := mul_nonneg (sub_nonneg.mpr b1.le) (show (0 : ℝ) ≤ labF t ^ 2 + labF t * (6 / 29) + (6 / 29) ^ 2 - 108 / 841 by nlinarith)
        have e : labF t ^ 3 - (6 / 29) ^ 3 = (labF t - 6 / 29) * (labF t ^ 2 + labF t * (6 / 29) + (6 / 29) ^ 2) := by ring
        rw [b2] at e
        linarith
      rw [a3]
      norm_num at this ⊢
      linarith
    · rw [a3, b3]; linarith
  rcases le_total s t with h | h
  · have := key s t hs h
    rw [abs_sub_comm, abs_of_nonneg (sub_nonneg.mpr (labF_mono hs h)), abs_sub_comm, abs_of_nonneg (sub_nonneg.mpr h)]
    exact this
  · have := key t s ht h
    rw [abs_of_nonneg (sub_nonneg.mpr (labF_mono ht h)), abs_of_nonneg (sub_nonneg.mpr h)]
    exact this

variable [FloatModel] [FineError]

/-! ## Rounding -/

theorem rnd_fine {s r ε : ℝ} (h : |s - r| ≤ ε) (M : ℝ) (hr : |r| ≤ M) (hM0 : 1e-20 ≤ M) (hM : M + ε ≤ 100000) (e : ℝ) (he : ε + (M + ε) * 1.2e-7 ≤ e) : Near (rnd s) r e := by
  have hε : 0 ≤ ε := (abs_nonneg _).trans h
  have hs : |s| ≤ M + ε := by have := abs_add_le (s - r) r; rw [sub_add_cancel] at this; linarith
  obtain ⟨y, h1, h2⟩ := FineError.rnd_near s (hs.trans (hM.trans (by norm_num)))
  refine ⟨y, h1, ?_⟩
  have h3 := abs_sub_le y s r
  have h4 : |s| / 2 ^ 23 ≤ (M + ε) / 2 ^ 23 := by gcongr
  norm_num at *
  linarith

theorem fadd {x y : Fl} {a b ε δ : ℝ} (hx : Near x a ε) (hy : Near y b δ) (M : ℝ) (hr : |a + b| ≤ M) (hM0 : 1e-20 ≤ M) (hM : M + (ε + δ) ≤ 100000) (e : ℝ)
    (he : (ε + δ) + (M + (ε + δ)) * 1.2e-7 ≤ e) : Near (x + y) (a + b) e := by
  obtain ⟨u, rfl, h1⟩ := hx; obtain ⟨v, rfl, h2⟩ := hy
  rw [fin_add]
  refine rnd_fine ?_ M hr hM0 hM e he
  rw [show u + v - (a + b) = (u - a) + (v - b) by ring]
  exact (abs_add_le _ _).trans (add_le_add h1 h2)

theorem fsub {x y : Fl} {a b ε δ : ℝ} (hx : Near x a ε) (hy : Near y b δ) (M : ℝ) (hr : |a - b| ≤ M) (hM0 : 1e-20 ≤ M) (hM : M + (ε + δ) ≤ 100000) (e : ℝ)
    (he : (ε + δ) + (M + (ε + δ)) * 1.2e-7 ≤ e) : Near (x - y) (a - b) e := by
  obtain ⟨u, rfl, h1⟩ := hx; obtain ⟨v, rfl, h2⟩ := hy
  rw [fin_sub]
  refine rnd_fine ?_ M hr hM0 hM e he
  rw [show u - v - (a - b) = (u - a) - (v - b) by ring]
  exact (abs_sub _ _).trans (add_le_add h1 h2)

theorem fmul {x : Fl} {a ε : ℝ} (c : ℝ) (c0 : 0 ≤ c) (hx : Near x a ε) (M : ℝ) (hr : |c * a| ≤ M) (hM0 : 1e-20 ≤ M) (hM : M + c * ε ≤ 100000) (e : ℝ)
    (he : c * ε + (M + c * ε) * 1.2e-7 ≤ e) : Near (fin c * x) (c * a) e := by
  obtain ⟨u, rfl, h1⟩ := hx
  rw [fin_mul]
  refine rnd_fine ?_ M hr hM0 hM e he
  rw [← mul_sub, abs_mul, abs_of_nonneg c0]
  gcongr

theorem fmul' {x : Fl} {a ε : ℝ} (c : ℝ) (c0 : 0 ≤ c) (hx : Near x a ε) (M : ℝ) (hr : |a * c| ≤ M) (hM0 : 1e-20 ≤ M) (hM : M + c * ε ≤ 100000) (e : ℝ)
    (he : c * ε + (M + c * ε) * 1.2e-7 ≤ e) : Near (x * fin c) (a * c) e := by
  obtain ⟨u, rfl, h1⟩ := hx
  rw [fin_mul]
  refine rnd_fine ?_ M hr hM0 hM e he
  rw [← sub_mul, abs_mul, abs_of_nonneg c0, mul_comm]
  gcongr

theorem fdiv {x : Fl} {a ε : ℝ} (c : ℝ) (c0 : 0 < c) (hx : Near x a ε) (M : ℝ) (hr : |a / c| ≤ M) (hM0 : 1e-20 ≤ M) (hM : M + ε / c ≤ 100000) (e : ℝ)
    (he : ε / c + (M + ε / c) * 1.2e-7 ≤ e) : Near (x / fin c) (a / c) e := by
  obtain ⟨u, rfl, h1⟩ := hx
  rw [fin_div _ _ c0.ne']
  refine rnd_fine ?_ M hr hM0 hM e he
  rw [← sub_div, abs_div, abs_of_pos c0]
  gcongr

/-- The border of the two pieces. -/
theorem border : ∃ e : ℝ, (216 : Fl) / 24389 = fin e ∧ |e - 216 / 24389| ≤ 3e-9 := by
  obtain ⟨e, h1, h2⟩ := FineError.rnd_near (216 / 24389) (by norm_num [abs_le])
  refine ⟨e, ?_, h2.trans (by norm_num [abs_of_pos])⟩
  rw [lit_def, lit_def, fin_div _ _ (by norm_num), h1]

/-- The slope of the straight piece. -/
theorem kappa : ∃ k : ℝ, (24389 : Fl) / 27 = fin k ∧ |k - 24389 / 27| ≤ 1.1e-4 := by
  obtain ⟨e, h1, h2⟩ := FineError.rnd_near (24389 / 27) (by norm_num [abs_le])
  refine ⟨e, ?_, h2.trans (by norm_num [abs_of_pos])⟩
  rw [lit_def, lit_def, fin_div _ _ (by norm_num), h1]

omit [FloatModel] [FineError] in
theorem knee_labF {t : ℝ} (h : |t - 216 / 24389| ≤ 3e-9) : |labF t - 6 / 29| ≤ 2.5e-8 := by
  have h' := abs_le.mp h
  have h0 : 0 ≤ t := by norm_num at *; linarith
  have := labF_lip h0 (t := 216 / 24389) (by norm_num)
  rw [show labF (216 / 24389) = 6 / 29 by unfold labF; norm_num] at this
  refine this.trans ?_
  norm_num at *
  linarith

omit [FloatModel] [FineError] in
theorem cbrt_cube {t : ℝ} (ht : 0 ≤ t) : (t ^ (1 / 3 : ℝ)) ^ 3 = t := by
  rw [← Real.rpow_natCast, ← Real.rpow_mul ht]; norm_num

omit [FloatModel] [FineError] in
/-- Around the border the cube root and `f` agree. -/
theorem cbrt_labF {t : ℝ} (h : 216 / 24389 - 3e-9 ≤ t) : |t ^ (1 / 3 : ℝ) - labF t| ≤ 6e-8 := by
  by_cases hk : (6 / 29 : ℝ) ^ 3 < t
  · rw [show labF t = t ^ (1 / 3 : ℝ) by unfold labF; rw [if_pos hk], sub_self, abs_zero]; norm_num
  · have ht : 0 ≤ t := by norm_num at *; linarith
    have hl := knee_labF (t := t) (by rw [abs_le]; norm_num at *; constructor <;> linarith)
    have hc := cbrt_cube ht
    have c0 := Real.rpow_nonneg ht (1 / 3 : ℝ)
    set c := t ^ (1 / 3 : ℝ)
    have hc1 : c ≤ 6 / 29 := by
      by_contra hh
      push Not at hh
      have := pow_lt_pow_left₀ hh (by norm_num) (n := 3) (by norm_num)
      linarith
    have hc2 : 6 / 29 - 3e-8 ≤ c := by
      by_contra hh
      push Not at hh
      have := pow_lt_pow_left₀ hh c0 (n := 3) (by norm_num)
      norm_num at *
      linarith
    rw [abs_le] at *
    norm_num at *
    constructor <;> linarith

/-- `f` in single precision. -/
theorem xyzToLab_near {t : ℝ} (h0 : 0 ≤ t) (h1 : t ≤ 1.001) : Near (Leaf.xyzToLab (fin t)) (labF t) 6e-7 := by
  obtain ⟨e, he, he'⟩ := border
  obtain ⟨k, hk, hk'⟩ := kappa
  obtain ⟨th, hth, hth'⟩ := FineError.rnd_near (1 / 3) (by norm_num [abs_le])
  have hthird : (1 : Fl) / 3 = fin th := by rw [one_def, lit_def, fin_div _ _ (by norm_num)]; exact hth
  simp only [Leaf.xyzToLab, he, hk, hthird, fin_lt]
  norm_num [abs_of_pos] at hth'
  have he2 := abs_le.mp he'
  have hk2 := abs_le.mp hk'
  have hth2 := abs_le.mp hth'
  split
  · rename_i ht
    have htl : 0.003 ≤ t := by norm_num at *; linarith
    have hpos : 0 < t := lt_of_lt_of_le (by norm_num) htl
    obtain ⟨r, hr, hr'⟩ := FineError.powf_near t th hpos (by linarith) (by linarith) (by linarith)
    refine ⟨r, hr, ?_⟩
    have hlog := Fine.log_low htl h1
    have e1 : t ^ th = t ^ (1 / 3 : ℝ) * Real.exp ((th - 1 / 3) * Real.log t) := by
      rw [Real.rpow_def_of_pos hpos, Real.rpow_def_of_pos hpos, ← Real.exp_add]
      congr 1; ring
    have hd : |(th - 1 / 3) * Real.log t| ≤ 2.4e-7 := by
      rw [abs_mul]
      refine (mul_le_mul hth' hlog (abs_nonneg _) (by norm_num)).trans (by norm_num)
    have hx := Real.abs_exp_sub_one_sub_id_le (hd.trans (by norm_num))
    set d := (th - 1 / 3) * Real.log t
    have hd3 : d ^ 2 ≤ 1e-12 := by
      rw [← sq_abs]
      refine (pow_le_pow_left₀ (abs_nonneg _) hd 2).trans (by norm_num)
    have c0 := Real.rpow_nonneg h0 (1 / 3 : ℝ)
    have c1 : t ^ (1 / 3 : ℝ) ≤ 1.001 := by
      by_contra hh
      push Not at hh
      have := pow_lt_pow_left₀ hh (by norm_num) (n := 3) (by norm_num)
      rw [cbrt_cube h0] at this
      norm_num at *
      linarith
    have hc := cbrt_labF (t := t) (by norm_num at *; linarith)
    rw [e1] at hr'
    generalize t ^ (1 / 3 : ℝ) = c at *
    generalize Real.exp d = E at *
    have hE : |E - 1| ≤ 2.41e-7 := by
      rw [abs_le] at *
      norm_num at *
      constructor <;> linarith
    have hcE : |c * E - c| ≤ 2.42e-7 := by
      rw [show c * E - c = c * (E - 1) by ring, abs_mul, abs_of_nonneg c0]
      exact (mul_le_mul c1 hE (abs_nonneg _) (by norm_num)).trans (by norm_num)
    rw [abs_le] at *
    norm_num at *
    constructor <;> linarith
  · rename_i ht
    push Not at ht
    have htk : |t * k - 24389 / 27 * t| ≤ 1e-6 := by
      rw [show t * k - 24389 / 27 * t = t * (k - 24389 / 27) by ring, abs_mul, abs_of_nonneg h0]
      refine (mul_le_mul (show t ≤ 0.0089 by norm_num at *; linarith) hk' (abs_nonneg _) (by norm_num)).trans (by norm_num)
    have m1 : Near (fin k * fin t) (24389 / 27 * t) 2e-6 := by
      rw [fin_mul]
      refine rnd_fine (ε := 1e-6) (by rw [mul_comm]; exact htk) 8.04 ?_ (by norm_num) (by norm_num) _ (by norm_num)
      rw [abs_of_nonneg (by positivity)]
      norm_num at *; linarith
    have m2 := fadd m1 (near_fin 16) 24.1 (by rw [abs_of_nonneg (by positivity)]; norm_num at *; linarith) (by norm_num) (by norm_num) 5e-6 (by norm_num)
    have m3 := fdiv 116 (by norm_num) m2 0.21 (by rw [abs_of_nonneg (by positivity)]; norm_num at *; linarith) (by norm_num) (by norm_num) 7e-8 (by norm_num)
    rw [lit_def, lit_def]
    obtain ⟨r, hr, hr'⟩ := m3
    refine ⟨r, hr, ?_⟩
    have hl : |(24389 / 27 * t + 16) / 116 - labF t| ≤ 1e-7 := by
      by_cases hb : (6 / 29 : ℝ) ^ 3 < t
      · have hl := knee_labF (t := t) (by rw [abs_le]; norm_num at *; constructor <;> linarith)
        rw [abs_le] at *
        norm_num at *
        constructor <;> linarith
      · rw [show labF t = 841 / 108 * t + 4 / 29 by unfold labF; rw [if_neg hb], show (24389 / 27 * t + 16) / 116 - (841 / 108 * t + 4 / 29) = 0 by ring, abs_zero]
        norm_num
    have := abs_sub_le r ((24389 / 27 * t + 16) / 116) (labF t)
    norm_num at *
    linarith

omit [FloatModel] [FineError] in
theorem cube_low {v c : ℝ} (h : c ^ 3 ≤ v ^ 3) (hv : 0 ≤ v) : c ≤ v := by
  by_contra hh
  push Not at hh
  have := pow_lt_pow_left₀ hh hv (n := 3) (by norm_num)
  linarith

omit [FloatModel] [FineError] in
theorem cube_high {v c : ℝ} (h : v ^ 3 ≤ c ^ 3) (hc : 0 ≤ c) : v ≤ c := by
  by_contra hh
  push Not at hh
  have := pow_lt_pow_left₀ hh hc (n := 3) (by norm_num)
  linarith

omit [FloatModel] [FineError] in
/-- Around the border the two pieces of `labG` agree. -/
theorem labG_knee {v : ℝ} (h : |v - 6 / 29| ≤ 1e-6) : |labG v - v ^ 3| ≤ 1e-11 ∧ |labG v - 108 / 841 * (v - 4 / 29)| ≤ 1e-11 := by
  have h' := abs_le.mp h
  have := knee (v := v) (by norm_num at *; linarith) (by norm_num at *; linarith) _ h
  unfold labG
  split
  · rw [sub_self, abs_zero]
    exact ⟨by norm_num, this.trans (by norm_num)⟩
  · rw [sub_self, abs_zero, abs_sub_comm]
    exact ⟨this.trans (by norm_num), by norm_num⟩

theorem cube_near {v : ℝ} (h0 : 0.1 ≤ v) (h1 : v ≤ 1.01) : ∃ r, powf (fin v) 3 = fin r ∧ |r - v ^ 3| ≤ v ^ 3 * 2.4e-7 := by
  obtain ⟨r, hr, hr'⟩ := FineError.powf_near v 3 (lt_of_lt_of_le (by norm_num) h0) (by linarith) (by norm_num) (by norm_num)
  rw [show v ^ (3 : ℝ) = v ^ 3 by rw [← Real.rpow_natCast]; norm_num] at hr'
  refine ⟨r, by rw [lit_def]; exact hr, hr'.trans ?_⟩
  have : (0.1 : ℝ) ^ 3 ≤ v ^ 3 := pow_le_pow_left₀ (by norm_num) h0 3
  norm_num at *
  linarith

/-- The inverse of `f` in single precision, as it is used for X and Z. -/
theorem labToXZ_near {v : ℝ} (h0 : 0.13 ≤ v) (h1 : v ≤ 1.01) : Near (Leaf.labToXZ (fin v)) (labG v) 2.6e-7 := by
  obtain ⟨e, he, he'⟩ := border
  obtain ⟨k, hk, hk'⟩ := kappa
  obtain ⟨r, hr, hr'⟩ := cube_near (v := v) (by linarith) h1
  simp only [Leaf.labToXZ, he, hk, hr, fin_lt]
  have he2 := abs_le.mp he'
  have hk2 := abs_le.mp hk'
  have hr2 := abs_le.mp hr'
  have hc1 : v ^ 3 ≤ 1.01 ^ 3 := pow_le_pow_left₀ (by linarith) h1 3
  have hc0 : 0 ≤ v ^ 3 := pow_nonneg (by linarith) 3
  split
  · rename_i ht
    refine ⟨r, rfl, ?_⟩
    have hg : |labG v - v ^ 3| ≤ 1e-11 := by
      by_cases hb : 6 / 29 < v
      · rw [show labG v = v ^ 3 by unfold labG; rw [if_pos hb], sub_self, abs_zero]; norm_num
      · push Not at hb
        refine (labG_knee ?_).1
        have : 6 / 29 - 1e-6 ≤ v := cube_low (by norm_num at *; linarith) (by linarith)
        rw [abs_le]
        constructor <;> linarith
    rw [abs_le] at *
    norm_num at *
    constructor <;> linarith
  · rename_i ht
    push Not at ht
    have hv : v ≤ 6 / 29 + 1e-6 := cube_high (by norm_num at *; linarith) (by norm_num)
    have m1 := fmul 116 (by norm_num) (near_fin v) 24.1 (by rw [abs_of_nonneg (by linarith)]; norm_num at *; linarith) (by norm_num) (by norm_num) 3e-6 (by norm_num)
    have m2 := fsub m1 (near_fin 16) 8.1 (by rw [abs_le]; norm_num at *; constructor <;> linarith) (by norm_num) (by norm_num) 4e-6 (by norm_num)
    rw [lit_def, lit_def]
    obtain ⟨q, hq, hq'⟩ := m2
    rw [hq]
    have kpos : 0 < k := by norm_num at *; linarith
    have m3 := fdiv k kpos (near_fin q) 0.01 (by rw [abs_div, abs_of_pos kpos, div_le_iff₀ kpos]; rw [abs_le] at *; norm_num at *; constructor <;> linarith) (by norm_num)
      (by rw [zero_div]; norm_num) 2e-9 (by rw [zero_div]; norm_num)
    obtain ⟨y, hy, hy'⟩ := m3
    refine ⟨y, hy, ?_⟩
    have hqk : |q / k - 108 / 841 * (v - 4 / 29)| ≤ 1e-8 := by
      rw [div_sub' kpos.ne', abs_div, abs_of_pos kpos, div_le_iff₀ kpos]
      have e1 : k * (108 / 841 * (v - 4 / 29)) = (116 * v - 16) + (k - 24389 / 27) * (108 / 841 * (v - 4 / 29)) := by ring
      have e2 : |(k - 24389 / 27) * (108 / 841 * (v - 4 / 29))| ≤ 1.1e-4 * 0.01 := by
        rw [abs_mul]
        refine mul_le_mul hk' ?_ (abs_nonneg _) (by norm_num)
        rw [abs_le]; norm_num at *; constructor <;> linarith
      rw [e1]
      rw [abs_le] at *
      norm_num at *
      constructor <;> linarith
    have hg : |labG v - 108 / 841 * (v - 4 / 29)| ≤ 1e-11 := by
      by_cases hb : 6 / 29 < v
      · refine (labG_knee ?_).2
        rw [abs_le]; constructor <;> linarith
      · rw [show labG v = 108 / 841 * (v - 4 / 29) by unfold labG; rw [if_neg hb], sub_self, abs_zero]; norm_num
    rw [abs_le] at *
    norm_num at *
    constructor <;> linarith

/-- The inverse of `f` in single precision, as it is used for Y. -/
theorem labToY_near {L : ℝ} (h0 : 0 ≤ L) (h1 : L ≤ 100) : Near (Leaf.labToY (fin L)) (labG ((L + 16) / 116)) 1.1e-6 := by
  obtain ⟨e, he, he'⟩ := border
  obtain ⟨k, hk, hk'⟩ := kappa
  have he2 := abs_le.mp he'
  have hk2 := abs_le.mp hk'
  have kpos : 0 < k := by norm_num at *; linarith
  have hek : |e * k - 8| ≤ 4e-6 := by
    have : e * k - 8 = e * (k - 24389 / 27) + 24389 / 27 * (e - 216 / 24389) := by ring
    rw [this]
    refine (abs_add_le _ _).trans ?_
    rw [abs_mul, abs_mul]
    have a1 : |e| * |k - 24389 / 27| ≤ 0.01 * 1.1e-4 := mul_le_mul (by rw [abs_le]; norm_num at *; constructor <;> linarith) hk' (abs_nonneg _) (by norm_num)
    rw [abs_of_pos (show (0 : ℝ) < 24389 / 27 by norm_num)]
    norm_num at *
    linarith
  obtain ⟨θ, hθ, hθ'⟩ : Near (fin e * fin k) 8 1e-5 := by
    rw [fin_mul]
    exact rnd_fine hek 8 (by norm_num) (by norm_num) (by norm_num) _ (by norm_num)
  have hθ2 := abs_le.mp hθ'
  simp only [Leaf.labToY, he, hk, hθ, fin_lt]
  have u0 : 0 ≤ (L + 16) / 116 := by positivity
  split
  · rename_i ht
    have m1 := fadd (near_fin L) (near_fin 16) 116 (by rw [abs_of_nonneg (by positivity)]; linarith) (by norm_num) (by norm_num) 1.4e-5 (by norm_num)
    have m2 := fdiv 116 (by norm_num) m1 1 (by rw [abs_of_nonneg u0, div_le_one (by norm_num)]; linarith) (by norm_num) (by norm_num) 2.42e-7 (by norm_num)
    rw [lit_def, lit_def]
    obtain ⟨v, hv, hv'⟩ := m2
    rw [hv]
    have hv2 := abs_le.mp hv'
    have u1 : (L + 16) / 116 ≤ 1 := by rw [div_le_one (by norm_num)]; linarith
    have u2 : 0.2 ≤ (L + 16) / 116 := by rw [le_div_iff₀ (by norm_num)]; norm_num at *; linarith
    obtain ⟨r, hr, hr'⟩ := cube_near (v := v) (by norm_num at *; linarith) (by norm_num at *; linarith)
    refine ⟨r, hr, ?_⟩
    have hc1 : v ^ 3 ≤ 1.000001 ^ 3 := pow_le_pow_left₀ (by norm_num at *; linarith) (by norm_num at *; linarith) 3
    have hc0 : 0 ≤ v ^ 3 := pow_nonneg (by norm_num at *; linarith) 3
    have hg : |labG v - v ^ 3| ≤ 1e-11 := by
      by_cases hb : 6 / 29 < v
      · rw [show labG v = v ^ 3 by unfold labG; rw [if_pos hb], sub_self, abs_zero]; norm_num
      · push Not at hb
        refine (labG_knee ?_).1
        rw [abs_le]
        norm_num at *
        constructor <;> linarith
    have hl := labG_lip (u := v) (v := (L + 16) / 116) (by norm_num at *; linarith) (by norm_num at *; linarith)
    have hl2 : |labG v - labG ((L + 16) / 116)| ≤ 7.6e-7 := hl.trans (by norm_num at *; linarith)
    rw [abs_le] at *
    norm_num at *
    constructor <;> linarith
  · rename_i ht
    push Not at ht
    have m3 := fdiv k kpos (near_fin L) 0.01 (by rw [abs_div, abs_of_pos kpos, div_le_iff₀ kpos]; rw [abs_le] at *; norm_num at *; constructor <;> linarith) (by norm_num)
      (by rw [zero_div]; norm_num) 2e-9 (by rw [zero_div]; norm_num)
    obtain ⟨y, hy, hy'⟩ := m3
    refine ⟨y, hy, ?_⟩
    have hqk : |L / k - 27 / 24389 * L| ≤ 1e-8 := by
      rw [div_sub' kpos.ne', abs_div, abs_of_pos kpos, div_le_iff₀ kpos]
      have e1 : L - k * (27 / 24389 * L) = (k - 24389 / 27) * (-(27 / 24389 * L)) := by ring
      rw [e1, abs_mul]
      refine (mul_le_mul hk' (show |(-(27 / 24389 * L))| ≤ 0.01 by rw [abs_neg, abs_of_nonneg (by positivity)]; norm_num at *; linarith) (abs_nonneg _) (by norm_num)).trans ?_
      norm_num at *
      linarith
    have hg : |labG ((L + 16) / 116) - 108 / 841 * ((L + 16) / 116 - 4 / 29)| ≤ 1e-11 := by
      by_cases hb : 6 / 29 < (L + 16) / 116
      · refine (labG_knee ?_).2
        rw [abs_le]; norm_num at *; constructor <;> linarith
      · rw [show labG ((L + 16) / 116) = 108 / 841 * ((L + 16) / 116 - 4 / 29) by unfold labG; rw [if_neg hb], sub_self, abs_zero]; norm_num
    rw [show 108 / 841 * ((L + 16) / 116 - 4 / 29) = 27 / 24389 * L by ring] at hg
    rw [abs_le] at *
    norm_num at *
    constructor <;> linarith

end FineLab

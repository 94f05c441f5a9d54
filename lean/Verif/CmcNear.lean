import Verif.Cie94Near

/-!
# The weights of the CMC difference in single precision

In binary32, whose library functions are correctly rounded, the three weights of the CMC difference are numbers away from zero.
-/

open Outcome Fl

namespace CmcNear

/-- A number between `lo` and `hi` that is not negative. -/
def Within (x : Fl) (lo hi : ℝ) : Prop := ∃ y, x = fin y ∧ 0 ≤ y ∧ lo ≤ y ∧ y ≤ hi

theorem Within.weaken {x : Fl} {lo hi lo' hi' : ℝ} (h : Within x lo hi) (h1 : lo' ≤ lo) (h2 : hi ≤ hi') : Within x lo' hi' := by
  obtain ⟨y, e, y0, a, b⟩ := h
  exact ⟨y, e, y0, h1.trans a, b.trans h2⟩

theorem Within.zero {x : Fl} {lo hi hi' : ℝ} (h : Within x lo hi) (h2 : hi ≤ hi') : Within x 0 hi' := by
  obtain ⟨y, e, y0, a, b⟩ := h
  exact ⟨y, e, y0, y0, b.trans h2⟩

section
variable [FloatModel] [FineError]

/-- Rounding a number that is not negative. -/
theorem round_pos {r : ℝ} (h0 : 0 ≤ r) (h1 : r ≤ 2 ^ 60) : ∃ y, rnd r = fin y ∧ 0 ≤ y ∧ |y - r| ≤ r / 10 ^ 6 + 1 / 10 ^ 9 := by
  obtain ⟨y, e, n⟩ := FineError.rnd_near r (by rw [abs_of_nonneg h0]; exact h1.trans (by norm_num))
  refine ⟨y, e, ?_, ?_⟩
  · have := FloatModel.rnd_mono 0 r h0
    rw [FloatModel.rnd_zero, e] at this
    simpa using this
  · rw [abs_of_nonneg h0] at n
    exact n.trans (by norm_num at *; linarith)

theorem round_any {r : ℝ} (h1 : |r| ≤ 2 ^ 60) : ∃ y, rnd r = fin y ∧ |y - r| ≤ |r| / 10 ^ 6 + 1 / 10 ^ 9 := by
  obtain ⟨y, e, n⟩ := FineError.rnd_near r (h1.trans (by norm_num))
  have h0 := abs_nonneg r
  refine ⟨y, e, n.trans ?_⟩
  generalize |r| = R at *
  norm_num
  linarith

theorem within_lit {k : ℝ} (h0 : 0 ≤ k) (h1 : k ≤ 1000) : Within (lit k) (0.999 * k - 1 / 10 ^ 8) (1.001 * k + 1 / 10 ^ 8) := by
  obtain ⟨y, e, y0, n⟩ := round_pos h0 (h1.trans (by norm_num))
  rw [abs_le] at n
  exact ⟨y, e, y0, by norm_num at *; linarith, by norm_num at *; linarith⟩

theorem within_mul {x y : Fl} {a b c d : ℝ} (hx : Within x a b) (hy : Within y c d) (ha : 0 ≤ a) (hc : 0 ≤ c) (hb : b ≤ 2 ^ 20) (hd : d ≤ 2 ^ 20) :
    Within (x * y) (0.999 * (a * c) - 1 / 10 ^ 8) (1.001 * (b * d) + 1 / 10 ^ 8) := by
  obtain ⟨u, rfl, -, u0, u1⟩ := hx
  obtain ⟨v, rfl, -, v0, v1⟩ := hy
  have m0 : a * c ≤ u * v := mul_le_mul u0 v0 hc (ha.trans u0)
  have m1 : u * v ≤ b * d := mul_le_mul u1 v1 (hc.trans v0) (ha.trans (u0.trans u1))
  have m2 : b * d ≤ 2 ^ 20 * 2 ^ 20 := mul_le_mul hb hd (hc.trans (v0.trans v1)) (by norm_num)
  have m3 : 0 ≤ a * c := mul_nonneg ha hc
  obtain ⟨y, e, y0, n⟩ := round_pos (r := u * v) (m3.trans m0) (m1.trans (m2.trans (by norm_num)))
  rw [abs_le] at n
  refine ⟨y, (fin_mul u v).trans e, y0, ?_, ?_⟩
  · norm_num at *; linarith
  · norm_num at *; linarith

theorem within_add {x y : Fl} {a b c d : ℝ} (hx : Within x a b) (hy : Within y c d) (ha : 0 ≤ a) (hc : 0 ≤ c) (hb : b ≤ 2 ^ 40) (hd : d ≤ 2 ^ 40) :
    Within (x + y) (0.999 * (a + c) - 1 / 10 ^ 8) (1.001 * (b + d) + 1 / 10 ^ 8) := by
  obtain ⟨u, rfl, -, u0, u1⟩ := hx
  obtain ⟨v, rfl, -, v0, v1⟩ := hy
  obtain ⟨y, e, y0, n⟩ := round_pos (r := u + v) (by linarith) (by norm_num at *; linarith)
  rw [abs_le] at n
  refine ⟨y, (fin_add u v).trans e, y0, ?_, ?_⟩
  · norm_num at *; linarith
  · norm_num at *; linarith

theorem within_div {x y : Fl} {a b c d : ℝ} (hx : Within x a b) (hy : Within y c d) (ha : 0 ≤ a) (hc : 1 / 10 ≤ c) (hb : b ≤ 2 ^ 40) :
    Within (x / y) (0.999 * (a / d) - 1 / 10 ^ 8) (1.001 * (b / c) + 1 / 10 ^ 8) := by
  obtain ⟨u, rfl, -, u0, u1⟩ := hx
  obtain ⟨v, rfl, -, v0, v1⟩ := hy
  have vp : 0 < v := by linarith
  have cp : 0 < c := by linarith
  have m0 : a / d ≤ u / v := div_le_div₀ (ha.trans u0) u0 vp v1
  have m1 : u / v ≤ b / c := div_le_div₀ (ha.trans (u0.trans u1)) u1 cp v0
  have m2 : b / c ≤ 2 ^ 40 / (1 / 10) := div_le_div₀ (by positivity) hb (by norm_num) hc
  have m3 : 0 ≤ u / v := div_nonneg (ha.trans u0) vp.le
  obtain ⟨y, e, y0, n⟩ := round_pos (r := u / v) m3 (m1.trans (m2.trans (by norm_num)))
  rw [abs_le] at n
  refine ⟨y, (fin_div u v vp.ne').trans e, y0, ?_, ?_⟩
  · norm_num at *; linarith
  · norm_num at *; linarith

theorem within_sqrt {x : Fl} {b : ℝ} (hx : Within x 0 b) (hb : b ≤ 2 ^ 40) : Within (Fl.sqrt x) 0 (1.001 * Real.sqrt b + 1 / 10 ^ 8) := by
  obtain ⟨u, rfl, -, u0, u1⟩ := hx
  have r0 := Real.sqrt_nonneg u
  have r1 := Real.sqrt_le_sqrt u1
  have r2 : Real.sqrt u ≤ 2 ^ 20 := by rw [Real.sqrt_le_left (by norm_num)]; exact u1.trans (hb.trans (by norm_num))
  obtain ⟨y, e, y0, n⟩ := round_pos (r := Real.sqrt u) r0 (r2.trans (by norm_num))
  rw [abs_le] at n
  refine ⟨y, by simp only [Fl.sqrt, if_neg (not_lt.mpr u0), e], y0, y0, ?_⟩
  norm_num at *
  linarith

/-- A number of size at most `B`. -/
def Small (x : Fl) (B : ℝ) : Prop := ∃ y, x = fin y ∧ |y| ≤ B

theorem small_rnd {r B : ℝ} (h : |r| ≤ B) (hB : B ≤ 2 ^ 40) : Small (rnd r) (1.001 * B + 1 / 10 ^ 8) := by
  obtain ⟨y, e, n⟩ := round_any (h.trans (hB.trans (by norm_num)))
  refine ⟨y, e, ?_⟩
  have := abs_add_le (y - r) r
  have h0 := abs_nonneg r
  rw [sub_add_cancel] at this
  generalize |r| = R at *
  generalize |y| = Y at *
  generalize |y - r| = Z at *
  norm_num at *
  linarith

theorem small_mul {x y : Fl} {A B : ℝ} (hx : Small x A) (hy : Small y B) (h : A * B ≤ 2 ^ 40) : Small (x * y) (1.001 * (A * B) + 1 / 10 ^ 8) := by
  obtain ⟨u, rfl, hu⟩ := hx
  obtain ⟨v, rfl, hv⟩ := hy
  rw [fin_mul]
  exact small_rnd (by rw [abs_mul]; exact mul_le_mul hu hv (abs_nonneg _) ((abs_nonneg _).trans hu)) h

theorem small_add {x y : Fl} {A B : ℝ} (hx : Small x A) (hy : Small y B) (h : A + B ≤ 2 ^ 40) : Small (x + y) (1.001 * (A + B) + 1 / 10 ^ 8) := by
  obtain ⟨u, rfl, hu⟩ := hx
  obtain ⟨v, rfl, hv⟩ := hy
  rw [fin_add]
  exact small_rnd ((abs_add_le _ _).trans (add_le_add hu hv)) h

/-- A number of any size at most `A` divided by a number away from zero. -/
theorem small_div {x y : Fl} {A c d : ℝ} (hx : Small x A) (hy : Within y c d) (hc : 1 / 100 ≤ c) (h : A ≤ 2 ^ 30) : Small (x / y) (1.001 * (A / c) + 1 / 10 ^ 8) := by
  obtain ⟨u, rfl, hu⟩ := hx
  obtain ⟨v, rfl, -, v0, -⟩ := hy
  have hv : 0 < v := by linarith
  have hA : 0 ≤ A := (abs_nonneg _).trans hu
  rw [fin_div _ _ hv.ne']
  have h1 : |u / v| ≤ A / c := by
    rw [abs_div, abs_of_pos hv]
    exact div_le_div₀ hA hu (by linarith) v0
  refine small_rnd h1 ?_
  exact (div_le_div₀ (by positivity) h (by norm_num) hc).trans (by norm_num)

/-- The weight of the lightness. -/
theorem sL_within {l : ℝ} (hl : |l| ≤ 200) : Within (if fin l < (16 : Fl) then lit 0.511 else (lit 0.040975 * fin l) / (1 + lit 0.01765 * fin l)) 0.1 10 := by
  split
  · exact (within_lit (by norm_num) (by norm_num)).weaken (by norm_num) (by norm_num)
  · rename_i h
    have h16 : 16 ≤ l := by
      rw [lit_def] at h
      simpa using h
    have hl2 : l ≤ 200 := (le_abs_self l).trans hl
    have hL : Within (fin l) 16 200 := ⟨l, rfl, by linarith, h16, hl2⟩
    have n1 := within_mul (within_lit (k := 0.040975) (by norm_num) (by norm_num)) hL (by norm_num) (by norm_num) (by norm_num) (by norm_num)
    have n2 := within_mul (within_lit (k := 0.01765) (by norm_num) (by norm_num)) hL (by norm_num) (by norm_num) (by norm_num) (by norm_num)
    have n3 := within_add (x := 1) (a := 1) (b := 1) ⟨1, one_def, by norm_num, le_rfl, le_rfl⟩ n2 (by norm_num) (by norm_num) (by norm_num) (by norm_num)
    exact (within_div n1 n3 (by norm_num) (by norm_num) (by norm_num)).weaken (by norm_num) (by norm_num)

/-- The weight of the chroma. -/
theorem sC_within {c : Fl} (hc : Within c 0 1000) : Within ((lit 0.0638 * c) / (1 + lit 0.0131 * c) + lit 0.638) 0.6 100 := by
  have n1 := within_mul (within_lit (k := 0.0638) (by norm_num) (by norm_num)) hc (by norm_num) (by norm_num) (by norm_num) (by norm_num)
  have n2 := within_mul (within_lit (k := 0.0131) (by norm_num) (by norm_num)) hc (by norm_num) (by norm_num) (by norm_num) (by norm_num)
  have n3 := within_add (x := 1) (a := 1) (b := 1) ⟨1, one_def, by norm_num, le_rfl, le_rfl⟩ (n2.zero le_rfl) (by norm_num) le_rfl (by norm_num) (by norm_num)
  have n4 := within_div (n1.zero le_rfl) n3 le_rfl (by norm_num) (by norm_num)
  exact (within_add (n4.zero le_rfl) (within_lit (k := 0.638) (by norm_num) (by norm_num)) le_rfl (by norm_num) (by norm_num) (by norm_num)).weaken (by norm_num) (by norm_num)

/-- The hue correction, given what the cosine is. -/
theorem sum_within {k m : ℝ} (hk : 0.3 ≤ k ∧ k ≤ 0.6) (hm : 0 ≤ m ∧ m ≤ 0.4) {c : ℝ} (hc : |c| ≤ 1.001) : Within (lit k + Fl.abs (lit m * fin c)) (0.998 * k) (1.003 * (k + m)) := by
  obtain ⟨u, eu, -, u0, u1⟩ := within_lit (k := m) hm.1 (by linarith)
  have hu : |u| ≤ 1.001 * m + 1 / 10 ^ 8 := by rw [abs_le]; constructor <;> (norm_num at *; linarith)
  have hp : |u * c| ≤ (1.001 * m + 1 / 10 ^ 8) * 1.001 := by rw [abs_mul]; exact mul_le_mul hu hc (abs_nonneg _) ((abs_nonneg _).trans hu)
  obtain ⟨y, e, n⟩ := round_any (r := u * c) (hp.trans (by norm_num at *; linarith))
  have hy : |y| ≤ 1.0021 * m + 1 / 10 ^ 7 := by
    have := abs_add_le (y - u * c) (u * c)
    rw [sub_add_cancel] at this
    generalize |u * c| = P at *
    generalize |y| = Y at *
    generalize |y - u * c| = Z at *
    norm_num at hp n ⊢
    linarith
  rw [eu, fin_mul, e]
  refine (within_add (within_lit (by linarith) (by linarith)) ⟨|y|, rfl, abs_nonneg y, abs_nonneg y, hy⟩ (by norm_num; linarith) le_rfl (by norm_num; linarith) (by norm_num; linarith)).weaken ?_ ?_
  · norm_num; linarith
  · norm_num; linarith

/-- The weight of the hue without the factor of the chroma. -/
theorem blend_within {F T : Fl} (hF : Within F 0 1.01) (hT : Within T 0.35 0.8) : Within (F * T + 1 - F) 0.3 2 := by
  obtain ⟨f, rfl, -, f0, f1⟩ := hF
  obtain ⟨t, rfl, -, t0, t1⟩ := hT
  have m0 : 0 ≤ f * t := mul_nonneg f0 (by linarith)
  have m1 : f * t ≤ 1.01 * 0.8 := mul_le_mul f1 t1 (by linarith) (by norm_num)
  have m2 : f * 0.35 ≤ f * t := mul_le_mul_of_nonneg_left t0 f0
  obtain ⟨x, ex, x0, nx⟩ := round_pos m0 (m1.trans (by norm_num))
  rw [abs_le] at nx
  obtain ⟨y, ey, y0, ny⟩ := round_pos (r := x + 1) (by linarith) (by norm_num at *; linarith)
  rw [abs_le] at ny
  obtain ⟨z, ez, z0, nz⟩ := round_pos (r := y - f) (by norm_num at *; linarith) (by norm_num at *; linarith)
  rw [abs_le] at nz
  refine ⟨z, ?_, z0, ?_, ?_⟩
  · rw [fin_mul, ex, one_def, fin_add, ey, fin_sub, ez]
  · norm_num at *; linarith
  · norm_num at *; linarith

theorem sum3 {x y z : ℝ} (hx : 0 ≤ x) (hy : 0 ≤ y) (hz : 0 ≤ z) (h1 : x ≤ 2 ^ 40) (h2 : y ≤ 2 ^ 40) (h3 : z ≤ 2 ^ 40) : Within (Fl.sqrt (fin x + fin y + fin z)) 0 (2 ^ 40) := by
  obtain ⟨u, eu, u0, nu⟩ := round_pos (r := x + y) (by linarith) (by norm_num at *; linarith)
  rw [abs_le] at nu
  obtain ⟨v, ev, v0, nv⟩ := round_pos (r := u + z) (by linarith) (by norm_num at *; linarith)
  rw [abs_le] at nv
  have s0 := Real.sqrt_nonneg v
  have s1 : Real.sqrt v ≤ 2 ^ 24 := by rw [Real.sqrt_le_left (by norm_num)]; norm_num at *; linarith
  obtain ⟨d, ed, d0, nd⟩ := round_pos s0 (s1.trans (by norm_num))
  rw [abs_le] at nd
  refine ⟨d, ?_, d0, d0, by norm_num at *; linarith⟩
  rw [fin_add, eu, fin_add, ev]
  simp only [Fl.sqrt, if_neg (not_lt.mpr v0), ed]

end

namespace Binary

open Binary32

theorem powf_four (x : ℝ) : letI := binary32; powf (.fin x) 4 = round32 (x ^ 4) := by
  letI := binary32
  have h4 : (4 : Fl) = fin 4 := by simp
  have h : powf (.fin x) (.fin 4) = round32 (x ^ (4 : ℝ)) := if_pos (.inr (.inr ⟨4, by norm_num⟩))
  rw [h4, h]
  congr 1
  exact_mod_cast Real.rpow_natCast x 4

/-- The hue correction is a number. -/
theorem T_within {a b : ℝ} : letI := binary32
    Within (Distance.cmcT (if Distance.toDeg (atan2f (fin b) (fin a)) < 0 then Distance.toDeg (atan2f (fin b) (fin a)) + 360 else Distance.toDeg (atan2f (fin b) (fin a)))) 0.35 0.8 := by
  letI := binary32
  haveI := binary32_fine
  have pi0 := Real.pi_gt_three
  have pi1 := Real.pi_lt_four
  have ear : atan2f (fin b) (fin a) = rnd (Complex.arg ⟨a, b⟩) := rfl
  have ha : |Complex.arg ⟨a, b⟩| ≤ 4 := (Complex.abs_arg_le_pi _).trans pi1.le
  obtain ⟨r, er, nr⟩ := round_any (r := Complex.arg ⟨a, b⟩) (ha.trans (by norm_num))
  have hr : |r| ≤ 5 := by
    have := abs_add_le (r - Complex.arg ⟨a, b⟩) (Complex.arg ⟨a, b⟩)
    rw [sub_add_cancel] at this
    generalize |Complex.arg ⟨a, b⟩| = P at *
    generalize |r| = Y at *
    generalize |r - Complex.arg ⟨a, b⟩| = Z at *
    norm_num at *
    linarith
  obtain ⟨p, ep, p00, p0, p1⟩ := within_lit (k := Real.pi) (by linarith) (by linarith)
  obtain ⟨g, eg, g00, g0, g1⟩ := within_div (x := 180) (a := 180) (b := 180) ⟨180, by simp, by norm_num, le_rfl, le_rfl⟩ ⟨p, ep, p00, p0, p1⟩ (by norm_num) (by norm_num; linarith) (by norm_num)
  obtain ⟨k, ek, k00, k0, k1⟩ := within_div (y := 180) (c := 180) (d := 180) ⟨p, ep, p00, p0, p1⟩ ⟨180, by simp, by norm_num, le_rfl, le_rfl⟩ (by norm_num; linarith) (by norm_num) (by norm_num; linarith)
  have sg : Small (fin g) 70 := ⟨g, rfl, by
    rw [abs_of_nonneg g00]
    refine g1.trans ?_
    have : (180 : ℝ) / (0.999 * Real.pi - 1 / 10 ^ 8) ≤ 180 / 2.9 := div_le_div_of_nonneg_left (by norm_num) (by norm_num) (by norm_num at *; linarith)
    norm_num at *
    linarith⟩
  have sk : Small (fin k) 1 := ⟨k, rfl, by rw [abs_of_nonneg k00]; refine k1.trans ?_; norm_num at *; linarith⟩
  have sD : Small (Distance.toDeg (atan2f (fin b) (fin a))) 400 := by
    obtain ⟨y, e, n⟩ := small_mul (x := fin r) ⟨r, rfl, hr⟩ sg (by norm_num)
    refine ⟨y, ?_, n.trans (by norm_num)⟩
    rw [Distance.toDeg, ear, er, eg]
    exact e
  have sH : Small (if Distance.toDeg (atan2f (fin b) (fin a)) < 0 then Distance.toDeg (atan2f (fin b) (fin a)) + 360 else Distance.toDeg (atan2f (fin b) (fin a))) 800 := by
    split
    · obtain ⟨y, e, n⟩ := small_add (y := 360) (B := 360) sD ⟨360, by simp, by norm_num [abs_of_pos]⟩ (by norm_num)
      exact ⟨y, e, n.trans (by norm_num)⟩
    · obtain ⟨y, e, n⟩ := sD
      exact ⟨y, e, n.trans (by norm_num)⟩
  generalize (if Distance.toDeg (atan2f (fin b) (fin a)) < 0 then Distance.toDeg (atan2f (fin b) (fin a)) + 360 else Distance.toDeg (atan2f (fin b) (fin a))) = H at sH
  have cosS : ∀ (n : Fl) (m : ℝ), n = fin m → |m| ≤ 200 → Small (cosf (Distance.toRad (H + n))) 1.001 := by
    intro n m hn hm
    obtain ⟨y, e, ny⟩ := small_mul (small_add sH ⟨m, hn, hm⟩ (by norm_num)) sk (by norm_num)
    have e2 : Distance.toRad (H + n) = fin y := by rw [Distance.toRad, ek]; exact e
    rw [e2]
    have e3 : cosf (fin y) = rnd (Real.cos y) := rfl
    obtain ⟨z, ez, nz⟩ := round_any (r := Real.cos y) ((Real.abs_cos_le_one y).trans (by norm_num))
    refine ⟨z, e3.trans ez, ?_⟩
    have h1 := Real.abs_cos_le_one y
    have := abs_add_le (z - Real.cos y) (Real.cos y)
    rw [sub_add_cancel] at this
    generalize |Real.cos y| = R at *
    generalize |z| = Y at *
    generalize |z - Real.cos y| = Z at *
    norm_num at *
    linarith
  unfold Distance.cmcT
  split
  · obtain ⟨c, ec, hc⟩ := cosS 168 168 (by simp) (by norm_num [abs_of_pos])
    rw [ec]
    exact (sum_within (k := 0.56) (m := 0.2) (by norm_num) (by norm_num) hc).weaken (by norm_num) (by norm_num)
  · obtain ⟨c, ec, hc⟩ := cosS 35 35 (by simp) (by norm_num [abs_of_pos])
    rw [ec]
    exact (sum_within (k := 0.36) (m := 0.4) (by norm_num) (by norm_num) hc).weaken (by norm_num) (by norm_num)

/-- The share of the hue correction. -/
theorem F_within {c : Fl} (hc : Within c 0 1000) : letI := binary32; Within (Fl.sqrt (powf c 4 / (powf c 4 + 1900))) 0 1.01 := by
  letI := binary32
  haveI := binary32_fine
  obtain ⟨u, rfl, -, u0, u1⟩ := hc
  have h4 : u ^ 4 ≤ 1000 ^ 4 := by gcongr
  have h40 : 0 ≤ u ^ 4 := by positivity
  obtain ⟨p, ep, p0, np⟩ := round_pos h40 (h4.trans (by norm_num))
  have hp : p ≤ 2 ^ 40 - 1900 := by rw [abs_le] at np; norm_num at *; linarith
  have e1 : powf (fin u) 4 = fin p := (powf_four u).trans ep
  obtain ⟨q, eq, q0, nq⟩ := round_pos (r := p + 1900) (by linarith) (by norm_num at *; linarith)
  rw [abs_le] at nq
  have q1 : 0.999 * p ≤ q ∧ 1000 ≤ q := by constructor <;> (norm_num at *; linarith)
  have hq0 : 0 < q := by linarith
  have d0 : 0 ≤ p / q := div_nonneg p0 q0
  have d1 : p / q ≤ 1.0011 := by rw [div_le_iff₀ hq0]; norm_num at *; linarith
  obtain ⟨t, et, t0, nt⟩ := round_pos d0 (d1.trans (by norm_num))
  rw [abs_le] at nt
  have t1 : t ≤ 1.0013 := by norm_num at *; linarith
  have e2 : powf (fin u) 4 / (powf (fin u) 4 + 1900) = fin t := by
    rw [e1, show (1900 : Fl) = fin 1900 by simp]
    rw [show (fin p + fin 1900 : Fl) = fin q from (fin_add p 1900).trans eq]
    exact (fin_div p q hq0.ne').trans et
  rw [e2]
  refine (within_sqrt ⟨t, rfl, t0, t0, t1⟩ (by norm_num)).weaken le_rfl ?_
  have : Real.sqrt 1.0013 ≤ 1.001 := by rw [Real.sqrt_le_left (by norm_num)]; norm_num
  norm_num at *
  linarith

/-- The CMC difference is a number if the squared hue difference is not negative after rounding. -/
theorem cmc_number {p q : Color} {l a b l' a' b' kl kc C C' : ℝ} (hp : p.comps = [fin l, fin a, fin b]) (hq : q.comps = [fin l', fin a', fin b'])
    (hl : |l| ≤ 200) (ha : |a| ≤ 200) (hb : |b| ≤ 200) (hl' : |l'| ≤ 200) (ha' : |a'| ≤ 200) (hb' : |b'| ≤ 200)
    (hC : C = Real.sqrt (a ^ 2 + b ^ 2)) (hC' : C' = Real.sqrt (a' ^ 2 + b' ^ 2)) (h0 : 1 ≤ kl ∧ kl ≤ 100) (h1 : 1 ≤ kc ∧ kc ≤ 100) : letI := binary32
    ∃ v, |v - ((a - a') ^ 2 + (b - b') ^ 2 - (C - C') ^ 2)| ≤ (C + C') ^ 2 * (28.8 / 2 ^ 23) + 1 / 2 ^ 29 ∧
      (v < 0 → Distance.cmc (fin kl) (fin kc) p q = ok .nan) ∧
      (0 ≤ v → ∃ d, Distance.cmc (fin kl) (fin kc) p q = ok (fin d) ∧ 0 ≤ d) := by
  letI := binary32
  haveI := binary32_fine
  haveI := binary32_square
  have big : ∀ {x : ℝ}, |x| ≤ 200 → |x| ≤ 1000 := fun h => h.trans (by norm_num)
  have c1 := Distance.chroma_near (big ha) (big hb)
  have c2 := Distance.chroma_near (big ha') (big hb')
  rw [← hC] at c1
  rw [← hC'] at c2
  have hC0 : 0 ≤ C := hC ▸ Real.sqrt_nonneg _
  have hC0' : 0 ≤ C' := hC' ▸ Real.sqrt_nonneg _
  have bound : ∀ x y : ℝ, |x| ≤ 200 → |y| ≤ 200 → Real.sqrt (x ^ 2 + y ^ 2) ≤ 300 := by
    intro x y hx hy
    rw [Real.sqrt_le_left (by norm_num)]
    have e1 : x ^ 2 ≤ 200 ^ 2 := by rw [← sq_abs]; gcongr
    have e2 : y ^ 2 ≤ 200 ^ 2 := by rw [← sq_abs]; gcongr
    linarith
  have C1 : C ≤ 300 := hC ▸ bound _ _ ha hb
  have C1' : C' ≤ 300 := hC' ▸ bound _ _ ha' hb'
  obtain ⟨x, t, ex, bx, nx, et, t0, nt⟩ := Distance.chroma_diff c1 c2 hC0 hC0' (by linarith)
  obtain ⟨v, ev, nv⟩ := Distance.hue_near ha hb ha' hb' hC hC' nt (by linarith)
  have wc : Within (Distance.chroma (fin a) (fin b)) 0 1000 := by
    obtain ⟨y, e, y0, n⟩ := c1
    refine ⟨y, e, y0, y0, ?_⟩
    rw [abs_le] at n
    norm_num at *
    linarith
  have wL := sL_within hl
  have wC := sC_within wc
  have wH := within_mul wC (blend_within (F_within wc) (T_within (a := a) (b := b))) (by norm_num) (by norm_num) (by norm_num) (by norm_num)
  have wkL := within_mul (x := fin kl) ⟨kl, rfl, by linarith, h0.1, h0.2⟩ wL (by norm_num) (by norm_num) (by norm_num) (by norm_num)
  have wkC := within_mul (x := fin kc) ⟨kc, rfl, by linarith, h1.1, h1.2⟩ wC (by norm_num) (by norm_num) (by norm_num) (by norm_num)
  have eval : Distance.cmc (fin kl) (fin kc) p q = ok (Fl.sqrt (powf ((fin l - fin l') / (fin kl * if fin l < (16 : Fl) then lit 0.511 else (lit 0.040975 * fin l) / (1 + lit 0.01765 * fin l))) 2 +
      powf (fin x / (fin kc * ((lit 0.0638 * Distance.chroma (fin a) (fin b)) / (1 + lit 0.0131 * Distance.chroma (fin a) (fin b)) + lit 0.638))) 2 +
      powf (Fl.sqrt (fin v) / (((lit 0.0638 * Distance.chroma (fin a) (fin b)) / (1 + lit 0.0131 * Distance.chroma (fin a) (fin b)) + lit 0.638) *
        (Fl.sqrt (powf (Distance.chroma (fin a) (fin b)) 4 / (powf (Distance.chroma (fin a) (fin b)) 4 + 1900)) *
          Distance.cmcT (if Distance.toDeg (atan2f (fin b) (fin a)) < 0 then Distance.toDeg (atan2f (fin b) (fin a)) + 360 else Distance.toDeg (atan2f (fin b) (fin a))) + 1 -
          Fl.sqrt (powf (Distance.chroma (fin a) (fin b)) 4 / (powf (Distance.chroma (fin a) (fin b)) 4 + 1900))))) 2)) := by
    rw [← ev, ← et, ← ex]
    obtain ⟨cls, ct, comps, al, mx, mn, sp⟩ := p
    obtain ⟨cls', ct', comps', al', mx', mn', sp'⟩ := q
    simp only at hp hq
    subst hp hq
    simp only [Distance.cmc, Conv.get3_0, Conv.get3_1, Conv.get3_2, ok_bind]
  rw [eval]
  clear eval ev nt nx et ex
  generalize (fin kl * if fin l < (16 : Fl) then lit 0.511 else (lit 0.040975 * fin l) / (1 + lit 0.01765 * fin l)) = SL at *
  generalize (fin kc * ((lit 0.0638 * Distance.chroma (fin a) (fin b)) / (1 + lit 0.0131 * Distance.chroma (fin a) (fin b)) + lit 0.638)) = SC at *
  generalize (((lit 0.0638 * Distance.chroma (fin a) (fin b)) / (1 + lit 0.0131 * Distance.chroma (fin a) (fin b)) + lit 0.638) *
        (Fl.sqrt (powf (Distance.chroma (fin a) (fin b)) 4 / (powf (Distance.chroma (fin a) (fin b)) 4 + 1900)) *
          Distance.cmcT (if Distance.toDeg (atan2f (fin b) (fin a)) < 0 then Distance.toDeg (atan2f (fin b) (fin a)) + 360 else Distance.toDeg (atan2f (fin b) (fin a))) + 1 -
          Fl.sqrt (powf (Distance.chroma (fin a) (fin b)) 4 / (powf (Distance.chroma (fin a) (fin b)) 4 + 1900)))) = SH at *
  refine ⟨v, nv, fun hv => ?_, fun hv => ?_⟩
  · have hn : powf (.nan : Fl) 2 = .nan := rfl
    have hs : Fl.sqrt (fin v) = .nan := by simp only [Fl.sqrt, if_pos hv]
    have hd : ∀ y : Fl, (.nan : Fl) / y = .nan := fun y => by cases y <;> rfl
    have had : ∀ y : Fl, y + (.nan : Fl) = .nan := fun y => by cases y <;> rfl
    rw [hs, hd, hn, had]
    rfl
  · have h2 : (2 : Fl) = fin 2 := by simp
    have square : ∀ {y : Fl} {B : ℝ}, Small y B → B ≤ 2 ^ 20 → ∃ r, powf y 2 = fin r ∧ 0 ≤ r ∧ r ≤ 1.001 * B ^ 2 + 1 := by
      rintro y B ⟨u, rfl, hu⟩ hB
      obtain ⟨r, e, r0, n⟩ := SquareNear.square_near u (hu.trans hB)
      have : u ^ 2 ≤ B ^ 2 := by rw [← sq_abs]; gcongr
      rw [abs_le] at n
      exact ⟨r, by rw [h2, e], r0, by norm_num at *; linarith⟩
    have dl : Small (fin l - fin l') 500 := by
      obtain ⟨y, e, n⟩ := small_rnd (r := l - l') (B := 400) ((abs_sub _ _).trans (by linarith)) (by norm_num)
      exact ⟨y, (fin_sub l l').trans e, n.trans (by norm_num)⟩
    have C2 : (C + C') ^ 2 ≤ 600 ^ 2 := by gcongr; linarith
    have D1 := Distance.plane_le a b a' b'
    rw [← hC, ← hC'] at D1
    have v1 : v ≤ 10 ^ 6 := by
      rw [abs_le] at nv
      have := sq_nonneg (C - C')
      norm_num at *
      linarith
    have dh : Small (Fl.sqrt (fin v)) 2000 := by
      obtain ⟨y, e, y0, -, n⟩ := within_sqrt (x := fin v) ⟨v, rfl, hv, hv, v1⟩ (by norm_num)
      refine ⟨y, e, ?_⟩
      have : Real.sqrt (10 ^ 6) ≤ 1000 := by rw [Real.sqrt_le_left (by norm_num)]; norm_num
      rw [abs_of_nonneg y0]
      norm_num at *
      linarith
    obtain ⟨r1, e1, r10, r11⟩ := square (small_div dl wkL (by norm_num) (by norm_num)) (by norm_num)
    obtain ⟨r2, e2, r20, r21⟩ := square (small_div (x := fin x) ⟨x, rfl, bx⟩ wkC (by norm_num) (by norm_num)) (by norm_num)
    obtain ⟨r3, e3, r30, r31⟩ := square (small_div dh wH (by norm_num) (by norm_num)) (by norm_num)
    rw [e1, e2, e3]
    obtain ⟨d, ed, d0, -, -⟩ := sum3 r10 r20 r30 (r11.trans (by norm_num)) (r21.trans (by norm_num)) (r31.trans (by norm_num))
    exact ⟨d, by rw [ed], d0⟩

/-- The CMC difference of colours with the same components is zero. -/
theorem cmc_zero {p q : Color} {l a b kl kc : ℝ} (hp : p.comps = [fin l, fin a, fin b]) (hq : q.comps = [fin l, fin a, fin b]) (hl : |l| ≤ 200) (ha : |a| ≤ 200) (hb : |b| ≤ 200)
    (h0 : 1 ≤ kl ∧ kl ≤ 100) (h1 : 1 ≤ kc ∧ kc ≤ 100) : letI := binary32; Distance.cmc (fin kl) (fin kc) p q = ok (fin 0) := by
  letI := binary32
  haveI := binary32_fine
  haveI := binary32_square
  have big : ∀ {x : ℝ}, |x| ≤ 200 → |x| ≤ 1000 := fun h => h.trans (by norm_num)
  have c1 := Distance.chroma_near (big ha) (big hb)
  have C1 : Real.sqrt (a ^ 2 + b ^ 2) ≤ 300 := by
    rw [Real.sqrt_le_left (by norm_num)]
    have e1 : a ^ 2 ≤ 200 ^ 2 := by rw [← sq_abs]; gcongr
    have e2 : b ^ 2 ≤ 200 ^ 2 := by rw [← sq_abs]; gcongr
    linarith
  have C0 := Real.sqrt_nonneg (a ^ 2 + b ^ 2)
  generalize Real.sqrt (a ^ 2 + b ^ 2) = C at *
  have wc : Within (Distance.chroma (fin a) (fin b)) 0 1000 := by
    obtain ⟨y, e, y0, n⟩ := c1
    refine ⟨y, e, y0, y0, ?_⟩
    rw [abs_le] at n
    norm_num at *
    linarith
  have wL := sL_within hl
  have wC := sC_within wc
  obtain ⟨sH, esH, -, hH, -⟩ := within_mul wC (blend_within (F_within wc) (T_within (a := a) (b := b))) (by norm_num) (by norm_num) (by norm_num) (by norm_num)
  obtain ⟨sL, esL, -, hL, -⟩ := within_mul (x := fin kl) ⟨kl, rfl, by linarith, h0.1, h0.2⟩ wL (by norm_num) (by norm_num) (by norm_num) (by norm_num)
  obtain ⟨sC, esC, -, hC, -⟩ := within_mul (x := fin kc) ⟨kc, rfl, by linarith, h1.1, h1.2⟩ wC (by norm_num) (by norm_num) (by norm_num) (by norm_num)
  obtain ⟨c, ec, -⟩ := wc
  have z : ∀ u : ℝ, fin u - fin u = fin 0 := fun u => (fin_sub u u).trans (by rw [sub_self]; exact FloatModel.rnd_zero)
  have d : ∀ u : ℝ, 0 < u → fin 0 / fin u = fin 0 := fun u hu => (fin_div 0 u hu.ne').trans (by rw [zero_div]; exact FloatModel.rnd_zero)
  have p0 : powf (fin 0) 2 = fin 0 := by
    have h2 : (2 : Fl) = fin 2 := by simp
    rw [h2, Binary32.powf_two]; norm_num [Binary32.round_zero]
  have a0 : fin 0 + fin 0 = fin 0 := (fin_add 0 0).trans (by rw [add_zero]; exact FloatModel.rnd_zero)
  have q0 : Fl.sqrt (fin 0) = fin 0 := by simp [Fl.sqrt, FloatModel.rnd_zero]
  have hs : Distance.chroma (fin a) (fin b) - Distance.chroma (fin a) (fin b) = fin 0 := by rw [ec]; exact z c
  obtain ⟨cls, ct, comps, al, mx, mn, sp⟩ := p
  obtain ⟨cls', ct', comps', al', mx', mn', sp'⟩ := q
  simp only at hp hq
  subst hp hq
  simp only [Distance.cmc, Conv.get3_0, Conv.get3_1, Conv.get3_2, ok_bind, esH, esL, esC, hs, z, p0, a0, q0]
  rw [d sL (by norm_num at hL; linarith), d sC (by norm_num at hC; linarith), d sH (by norm_num at hH; linarith), p0, a0, a0, q0]

end Binary

end CmcNear

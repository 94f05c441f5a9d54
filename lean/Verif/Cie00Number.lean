import Verif.Cie00Near

/-!
# When CIEDE2000 differences are numbers in binary32
-/

open Outcome Fl

namespace Cie00Near

open Binary32 CmcNear

/-- A stretched component that is not positive stays so. -/
theorem stretch_neg {a : ℝ} {g : Fl} (ha : round32 a = fin a) (h0 : a ≤ 0) (h1 : -128 ≤ a) (hg : Within g 0 1) : letI := binary32; ∃ t, fin a + fin a / 2 * (1 - g) = fin t ∧ t ≤ a := by
  letI := binary32
  have r128 : round32 (-128) = fin (-128) := by have := round_nat (-128) (by norm_num); norm_num at *; exact this
  have r256 : round32 (-256) = fin (-256) := by have := round_nat (-256) (by norm_num); norm_num at *; exact this
  obtain ⟨g, rfl, -, g0, g1⟩ := hg
  obtain ⟨m, em, m0, m1⟩ := round_keep (r := 1 - g) round_zero round_one (by linarith) (by linarith)
  obtain ⟨k, ek, k0, k1⟩ := round_keep (r := a / 2) r128 round_zero (by linarith) (by linarith)
  obtain ⟨n, en, n0, n1⟩ := round_keep (r := k * m) r128 round_zero (by nlinarith) (by nlinarith)
  obtain ⟨t, et, -, t0⟩ := round_keep (r := a + n) r256 ha (by linarith) (by linarith)
  refine ⟨t, ?_, t0⟩
  have e1 : (1 - fin g : Fl) = fin m := by rw [one_def]; exact (fin_sub 1 g).trans em
  have e2 : (fin a / 2 : Fl) = fin k := by
    have h2 : (2 : Fl) = fin 2 := by simp
    rw [h2]; exact (fin_div a 2 (by norm_num)).trans ek
  rw [e1, e2]
  exact (congrArg (fin a + ·) ((fin_mul k m).trans en)).trans ((fin_add a n).trans et)

set_option maxHeartbeats 1600000 in
/-- The hue in whole degrees of a colour from green to blue lies between 89 and 271. -/
theorem hue_left {b t : ℝ} (ht : t ≤ 0) (hn : t ≠ 0 ∨ b ≠ 0) : letI := binary32
    ∃ n : ℤ, Distance.hueInt (fin b) (fin t) = ok n ∧ 89 ≤ n ∧ n ≤ 271 := by
  letI := binary32
  haveI := binary32_fine
  have pi0 := Real.pi_gt_d2
  have pi1 := Real.pi_lt_d2
  have A0 : Real.pi / 2 ≤ |Complex.arg ⟨t, b⟩| := by
    by_contra h
    rw [not_le, Complex.abs_arg_lt_pi_div_two_iff] at h
    rcases h with h | h
    · exact absurd h (not_lt.mpr ht)
    · rcases hn with hn | hn
      · exact hn (congrArg Complex.re h)
      · exact hn (congrArg Complex.im h)
  have A1 : |Complex.arg ⟨t, b⟩| ≤ Real.pi := Complex.abs_arg_le_pi _
  have ear : atan2f (fin b) (fin t) = rnd (Complex.arg ⟨t, b⟩) := rfl
  generalize Complex.arg ⟨t, b⟩ = A at *
  obtain ⟨p, ep, p0, np⟩ := round_pos (r := Real.pi) (by linarith) (by norm_num at *; linarith)
  rw [abs_le] at np
  have hp0 : 3.13 ≤ p := by norm_num at *; linarith
  have hp1 : p ≤ 3.1501 := by norm_num at *; linarith
  have hpa : p ≤ Real.pi * (1 + 1 / 10 ^ 5) := by norm_num at *; linarith
  have hpb : Real.pi * (1 - 1 / 10 ^ 5) ≤ p := by norm_num at *; linarith
  have pp : 0 < p := by norm_num at *; linarith
  have K0 : 180 / p ≤ 60 := by rw [div_le_iff₀ pp]; norm_num at *; linarith
  have K1 : 0 ≤ 180 / p := by positivity
  obtain ⟨k, ek, k0, nk⟩ := round_pos (r := 180 / p) K1 (K0.trans (by norm_num))
  rw [abs_le] at nk
  have P1 : 180 / p * Real.pi ≤ 180 * (1 + 2 / 10 ^ 5) := by
    have : 180 / p * (Real.pi * (1 - 1 / 10 ^ 5)) ≤ 180 / p * p := by gcongr
    rw [div_mul_cancel₀ _ pp.ne'] at this
    norm_num at *
    linarith
  have P0 : 180 * (1 - 2 / 10 ^ 5) ≤ 180 / p * Real.pi := by
    have : 180 / p * p ≤ 180 / p * (Real.pi * (1 + 1 / 10 ^ 5)) := by gcongr
    rw [div_mul_cancel₀ _ pp.ne'] at this
    norm_num at *
    linarith
  have h180 : (180 : Fl) = fin 180 := by simp
  have e2 : (180 / lit Real.pi : Fl) = fin k := by
    rw [show lit Real.pi = fin p from ep, h180]
    exact (fin_div 180 p pp.ne').trans ek
  clear ek
  generalize 180 / p = K at *
  obtain ⟨r, er, nr⟩ := round_any (r := A) (A1.trans (by norm_num at *; linarith))
  rw [abs_le] at nr
  -- both signs at once: the size of the rounded angle in degrees
  have size : ∀ s : ℝ, s = 1 ∨ s = -1 → Real.pi / 2 ≤ s * A → ∃ d, rnd (r * k) = fin d ∧ 89.9 ≤ s * d ∧ s * d ≤ 180.1 := by
    intro s hs hA
    have ss : s * s = 1 := by rcases hs with rfl | rfl <;> norm_num
    have hA1 : s * A = |A| := by
      rcases hs with rfl | rfl
      · rw [one_mul, abs_of_nonneg (by linarith)]
      · rw [abs_of_nonpos (by linarith)]; ring
    have r0 : Real.pi / 2 * (1 - 1 / 10 ^ 5) ≤ s * r := by
      rw [← hA1] at nr
      rcases hs with rfl | rfl <;> norm_num at * <;> linarith
    have r1 : s * r ≤ Real.pi * (1 + 1 / 10 ^ 5) := by
      rw [← hA1] at nr A1
      rcases hs with rfl | rfl <;> norm_num at * <;> linarith
    have k1 : k ≤ K * (1 + 1 / 10 ^ 5) + 1 / 10 ^ 9 := by norm_num at *; linarith
    have k2 : K * (1 - 1 / 10 ^ 5) - 1 / 10 ^ 9 ≤ k := by norm_num at *; linarith
    have m1 : s * r * k ≤ 180.05 := by
      have : s * r * k ≤ Real.pi * (1 + 1 / 10 ^ 5) * (K * (1 + 1 / 10 ^ 5) + 1 / 10 ^ 9) := mul_le_mul r1 k1 k0 (by positivity)
      refine this.trans ?_
      have e : Real.pi * (1 + 1 / 10 ^ 5) * (K * (1 + 1 / 10 ^ 5) + 1 / 10 ^ 9) = K * Real.pi * ((1 + 1 / 10 ^ 5) * (1 + 1 / 10 ^ 5)) + Real.pi * ((1 + 1 / 10 ^ 5) * (1 / 10 ^ 9)) := by ring
      rw [e]
      norm_num at *
      linarith
    have m0 : 89.95 ≤ s * r * k := by
      have h0 : 0 ≤ K * (1 - 1 / 10 ^ 5) - 1 / 10 ^ 9 := by
        have : 1 ≤ K := by
          by_contra h
          have : K * Real.pi ≤ 1 * Real.pi := by gcongr; exact (not_le.mp h).le
          norm_num at *
          linarith
        norm_num at *
        linarith
      have : Real.pi / 2 * (1 - 1 / 10 ^ 5) * (K * (1 - 1 / 10 ^ 5) - 1 / 10 ^ 9) ≤ s * r * k := mul_le_mul r0 k2 h0 (le_trans (by have := Real.pi_pos; norm_num; positivity) r0)
      refine le_trans ?_ this
      have e : Real.pi / 2 * (1 - 1 / 10 ^ 5) * (K * (1 - 1 / 10 ^ 5) - 1 / 10 ^ 9) = K * Real.pi * ((1 - 1 / 10 ^ 5) * (1 - 1 / 10 ^ 5) / 2) - Real.pi * ((1 - 1 / 10 ^ 5) * (1 / 10 ^ 9) / 2) := by ring
      rw [e]
      norm_num at *
      linarith
    have am : |r * k| = s * r * k := by
      have : r * k = s * (s * r * k) := by rw [← mul_assoc, ← mul_assoc, ss, one_mul]
      rw [this, abs_mul, abs_of_nonneg (by norm_num at *; linarith : 0 ≤ s * r * k)]
      rcases hs with rfl | rfl <;> norm_num
    obtain ⟨d, ed, nd⟩ := round_any (r := r * k) (by rw [am]; exact m1.trans (by norm_num))
    rw [am, abs_le] at nd
    refine ⟨d, ed, ?_, ?_⟩ <;> rcases hs with rfl | rfl <;> norm_num at * <;> linarith
  have et : ∀ d, rnd (r * k) = fin d → Distance.toDeg (atan2f (fin b) (fin t)) = fin d := by
    intro d ed
    rw [Distance.toDeg, ear, er, e2]
    exact (fin_mul r k).trans ed
  unfold Distance.hueInt
  rcases le_total 0 A with hA | hA
  · rw [abs_of_nonneg hA] at A0
    obtain ⟨d, ed, d0, d1⟩ := size 1 (.inl rfl) (by rw [one_mul]; exact A0)
    rw [one_mul] at d0 d1
    rw [et d ed]
    have dn : 0 ≤ d := by norm_num at d0 d1 ⊢; linarith
    have f0 : 89 ≤ ⌊d⌋ := Int.le_floor.mpr (by norm_num at d0 d1 ⊢; linarith)
    have f1 : ⌊d⌋ < 181 := Int.floor_lt.mpr (by norm_num at d0 d1 ⊢; linarith)
    have tr : truncR d = ⌊d⌋ := if_pos dn
    have ti : Distance.toInt (fin d) = ok ⌊d⌋ := by
      simp only [Distance.toInt, tr]
      exact if_pos ⟨by omega, by omega⟩
    rw [ti]
    simp only [ok_bind]
    have : (⌊d⌋).tmod 360 = ⌊d⌋ := Int.tmod_eq_of_lt (by omega) (by omega)
    rw [this, if_neg (by omega)]
    exact ⟨_, rfl, f0, by omega⟩
  · rw [abs_of_nonpos hA] at A0
    obtain ⟨d, ed, d0, d1⟩ := size (-1) (.inr rfl) (by linarith)
    rw [et d ed]
    have dn : ¬ 0 ≤ d := by norm_num at d0 d1 ⊢; linarith
    have f0 : ⌈d⌉ ≤ -89 := Int.ceil_le.mpr (by norm_num at d0 d1 ⊢; linarith)
    have f1 : -181 < ⌈d⌉ := Int.lt_ceil.mpr (by norm_num at d0 d1 ⊢; linarith)
    have tr : truncR d = ⌈d⌉ := if_neg dn
    have ti : Distance.toInt (fin d) = ok ⌈d⌉ := by
      simp only [Distance.toInt, tr]
      exact if_pos ⟨by omega, by omega⟩
    rw [ti]
    simp only [ok_bind]
    clear ti tr
    generalize ⌈d⌉ = m at *
    have : m.tmod 360 = m := by
      have e := Int.neg_tmod (-m) 360
      rw [neg_neg] at e
      rw [e, Int.tmod_eq_of_lt (a := -m) (by omega) (by omega), neg_neg]
    rw [this, if_pos (by omega)]
    exact ⟨_, rfl, by omega, by omega⟩

/-- The rounded sine and cosine lie between -1 and 1. -/
theorem trig {x : ℝ} (h : |x| ≤ 1) : ∃ y, round32 x = fin y ∧ |y| ≤ 1 := by
  rw [abs_le] at h
  have r1 : round32 (-1) = fin (-1) := by have := round_nat (-1) (by norm_num); norm_num at *; exact this
  obtain ⟨y, e, a, b⟩ := round_keep r1 round_one h.1 h.2
  exact ⟨y, e, abs_le.mpr ⟨a, b⟩⟩

/-- Degrees to radians. -/
theorem rad_small {x : Fl} {B : ℝ} (h : Small x B) (hB : B ≤ 2 ^ 38) : letI := binary32; Small (Distance.toRad x) (1.001 * B + 1 / 10 ^ 8) := by
  letI := binary32
  haveI := binary32_fine
  have pi0 := Real.pi_gt_three
  have pi1 := Real.pi_lt_four
  obtain ⟨p, ep, p00, p0, p1⟩ := within_lit (k := Real.pi) (by linarith) (by linarith)
  obtain ⟨k, ek, k00, k0, k1⟩ := within_div (y := 180) (c := 180) (d := 180) ⟨p, ep, p00, p0, p1⟩ ⟨180, by simp, by norm_num, le_rfl, le_rfl⟩ (by norm_num; linarith) (by norm_num) (by norm_num; linarith)
  have sk : Small (fin k) 1 := ⟨k, rfl, by rw [abs_of_nonneg k00]; refine k1.trans ?_; norm_num at *; linarith⟩
  rw [Distance.toRad, ek]
  obtain ⟨y, e, n⟩ := small_mul h sk (by norm_num at *; linarith)
  exact ⟨y, e, by rw [mul_one] at n; exact n⟩

theorem cos_small {x : Fl} {B : ℝ} (h : Small x B) (hB : B ≤ 2 ^ 38) : letI := binary32; Small (cosf (Distance.toRad x)) 1 := by
  letI := binary32
  obtain ⟨y, e, -⟩ := rad_small h hB
  obtain ⟨z, ez, nz⟩ := trig (Real.abs_cos_le_one y)
  exact ⟨z, by rw [e]; exact ez, nz⟩

theorem small_lit {c : Fl} {k : ℝ} (h0 : 0 ≤ k) (h1 : k ≤ 1) (h : Small c 1) : letI := binary32; Small (lit k * c) (k + 0.003) := by
  letI := binary32
  haveI := binary32_fine
  obtain ⟨y, e, y0, -, y1⟩ := within_lit (k := k) h0 (by linarith)
  rw [e]
  obtain ⟨z, ez, nz⟩ := small_mul (x := fin y) (A := 1.001 * k + 1 / 10 ^ 8) ⟨y, rfl, by rw [abs_of_nonneg y0]; exact y1⟩ h (by norm_num; linarith)
  exact ⟨z, ez, nz.trans (by norm_num; linarith)⟩

theorem step {v m : Fl} {lo hi B : ℝ} (hv : Within v lo hi) (hm : Small m B) (h0 : 0 ≤ lo - B) (h1 : hi + B ≤ 5) : letI := binary32
    Within (v + m) (lo - B - 0.001) (hi + B + 0.001) ∧ Within (v - m) (lo - B - 0.001) (hi + B + 0.001) := by
  letI := binary32
  haveI := binary32_fine
  obtain ⟨v, rfl, -, v0, v1⟩ := hv
  obtain ⟨m, rfl, hm⟩ := hm
  rw [abs_le] at hm
  constructor
  · obtain ⟨y, e, y0, n⟩ := round_pos (r := v + m) (by linarith) (by norm_num; linarith)
    rw [abs_le] at n
    exact ⟨y, (fin_add v m).trans e, y0, by norm_num at *; linarith, by norm_num at *; linarith⟩
  · obtain ⟨y, e, y0, n⟩ := round_pos (r := v - m) (by linarith) (by norm_num; linarith)
    rw [abs_le] at n
    exact ⟨y, (fin_sub v m).trans e, y0, by norm_num at *; linarith, by norm_num at *; linarith⟩

/-- The hue correction. -/
theorem T_within {H : Fl} (hH : Small H 500) : letI := binary32
    Within (1 - lit 0.17 * cosf (Distance.toRad (H - 30)) + lit 0.24 * cosf (Distance.toRad (2 * H)) + lit 0.32 * cosf (Distance.toRad (3 * H + 6)) - lit 0.2 * cosf (Distance.toRad (4 * H - 63))) 0 3 := by
  letI := binary32
  haveI := binary32_fine
  have num : ∀ (n : Fl) (m : ℝ), n = fin m → |m| ≤ 300 → Small n 300 := fun n m e h => ⟨m, e, h⟩
  have sub : ∀ {x y : Fl} {A B : ℝ}, Small x A → Small y B → A + B ≤ 2 ^ 40 → Small (x - y) (1.001 * (A + B) + 1 / 10 ^ 8) := by
    rintro x y A B ⟨u, rfl, hu⟩ ⟨v, rfl, hv⟩ h
    rw [fin_sub]
    exact small_rnd ((abs_sub _ _).trans (add_le_add hu hv)) h
  have c1 := small_lit (k := 0.17) (by norm_num) (by norm_num) (cos_small (sub hH (num 30 30 (by simp) (by norm_num [abs_of_pos])) (by norm_num)) (by norm_num))
  have c2 := small_lit (k := 0.24) (by norm_num) (by norm_num) (cos_small (small_mul (num 2 2 (by simp) (by norm_num [abs_of_pos])) hH (by norm_num)) (by norm_num))
  have c3 := small_lit (k := 0.32) (by norm_num) (by norm_num) (cos_small (small_add (small_mul (num 3 3 (by simp) (by norm_num [abs_of_pos])) hH (by norm_num)) (num 6 6 (by simp) (by norm_num [abs_of_pos])) (by norm_num)) (by norm_num))
  have c4 := small_lit (k := 0.2) (by norm_num) (by norm_num) (cos_small (sub (small_mul (num 4 4 (by simp) (by norm_num [abs_of_pos])) hH (by norm_num)) (num 63 63 (by simp) (by norm_num [abs_of_pos])) (by norm_num)) (by norm_num))
  have w1 := (step (v := 1) (lo := 1) (hi := 1) ⟨1, by simp, by norm_num, le_rfl, le_rfl⟩ c1 (by norm_num) (by norm_num)).2
  have w2 := (step w1 c2 (by norm_num) (by norm_num)).1
  have w3 := (step w2 c3 (by norm_num) (by norm_num)).1
  exact ((step w3 c4 (by norm_num) (by norm_num)).2).zero (by norm_num)

/-- The weight of the hue or the chroma. -/
theorem weight_within {k m : ℝ} {c u : Fl} (hk : 0 ≤ k ∧ k ≤ 1) (hm : 1 ≤ m ∧ m ≤ 100) (hc : Within c 0 1100) (hu : Within u 0 3) : letI := binary32
    Within (fin m * (1 + fin k * c)) 0.99 500000 ∧ Within (fin m * (1 + fin k * c * u)) 0.99 500000 := by
  letI := binary32
  haveI := binary32_fine
  have w1 := (within_mul (x := fin k) (a := 0) (b := 1) ⟨k, rfl, hk.1, hk.1, hk.2⟩ hc le_rfl le_rfl (by norm_num) (by norm_num)).zero (by norm_num : _ ≤ (1102 : ℝ))
  have w2 := (within_mul w1 hu le_rfl le_rfl (by norm_num) (by norm_num)).zero (by norm_num : _ ≤ (3400 : ℝ))
  have one : ∀ {x : Fl}, Within x 0 3400 → Within (1 + x) 0.998 3500 := fun h =>
    (within_add (x := 1) (a := 1) (b := 1) ⟨1, by simp, by norm_num, le_rfl, le_rfl⟩ h (by norm_num) le_rfl (by norm_num) (by norm_num)).weaken (by norm_num) (by norm_num)
  have times : ∀ {x : Fl}, Within x 0.998 3500 → Within (fin m * x) 0.99 500000 := fun h =>
    (within_mul (x := fin m) (a := 1) (b := 100) ⟨m, rfl, by linarith, hm.1, hm.2⟩ h (by norm_num) (by norm_num) (by norm_num) (by norm_num)).weaken (by norm_num) (by norm_num)
  exact ⟨times (one (w1.weaken le_rfl (by norm_num))), times (one w2)⟩

set_option maxHeartbeats 1600000 in
/-- The weight of the lightness. -/
theorem light_within {k m l l' : ℝ} (hk : 0 ≤ k ∧ k ≤ 1) (hm : 1 ≤ m ∧ m ≤ 100) (hl : 0 ≤ l ∧ l ≤ 100) (hl' : 0 ≤ l' ∧ l' ≤ 100) : letI := binary32
    Within (fin m * (1 + (fin k * powf ((fin l + fin l') / 2 - 50) 2) / Fl.sqrt (20 + powf ((fin l + fin l') / 2 - 50) 2))) 0.99 (1.01 * (m * (1 + 51 * k))) := by
  letI := binary32
  haveI := binary32_fine
  haveI := binary32_square
  have h2 : (2 : Fl) = fin 2 := by simp
  have h50 : (50 : Fl) = fin 50 := by simp
  have h20 : (20 : Fl) = fin 20 := by simp
  obtain ⟨s, es, s0, ns⟩ := round_pos (r := l + l') (by linarith) (by norm_num; linarith)
  rw [abs_le] at ns
  have s1 : s ≤ 200.01 := by norm_num at *; linarith
  obtain ⟨t, et, t0, nt⟩ := round_pos (r := s / 2) (by linarith) (by norm_num at *; linarith)
  rw [abs_le] at nt
  have t1 : t ≤ 100.01 := by norm_num at *; linarith
  obtain ⟨v, ev, nv⟩ := small_rnd (r := t - 50) (B := 50.01) (by rw [abs_le]; constructor <;> (norm_num at *; linarith)) (by norm_num)
  have nv' : |v| ≤ 50.1 := nv.trans (by norm_num)
  have v2 : v ^ 2 ≤ 50.1 ^ 2 := by rw [← sq_abs]; gcongr
  obtain ⟨q, eq, q0, nq⟩ := round_pos (r := v ^ 2) (by positivity) (v2.trans (by norm_num))
  rw [abs_le] at nq
  have q1 : q ≤ 50.2 ^ 2 := by norm_num at *; linarith
  have ep : powf ((fin l + fin l') / 2 - 50) 2 = fin q := by
    rw [show (fin l + fin l' : Fl) = fin s from (fin_add l l').trans es, h2, show (fin s / fin 2 : Fl) = fin t from (fin_div s 2 (by norm_num)).trans et, h50,
      show (fin t - fin 50 : Fl) = fin v from (fin_sub t 50).trans ev, powf_two]
    exact eq
  rw [ep, h20]
  obtain ⟨y, ey, y0, ny⟩ := round_pos (r := 20 + q) (by linarith) (by norm_num at *; linarith)
  rw [abs_le] at ny
  have y1 : q ≤ y ∧ 16 ≤ y ∧ y ≤ 3000 := by
    refine ⟨?_, ?_, ?_⟩ <;> (norm_num at *; linarith)
  have ry : Real.sqrt q ≤ Real.sqrt y := Real.sqrt_le_sqrt y1.1
  have ry4 : 4 ≤ Real.sqrt y := Real.le_sqrt_of_sq_le (by norm_num; exact y1.2.1)
  have ryU : Real.sqrt y ≤ 100 := by rw [Real.sqrt_le_left (by norm_num)]; linarith [y1.2.2]
  have rq : Real.sqrt q ≤ 50.2 := by rw [Real.sqrt_le_left (by norm_num)]; exact q1
  have rq0 := Real.sqrt_nonneg q
  have qq : q = Real.sqrt q * Real.sqrt q := (Real.mul_self_sqrt q0).symm
  obtain ⟨r, er, r0, nr⟩ := round_pos (r := Real.sqrt y) (by linarith) (ryU.trans (by norm_num))
  rw [abs_le] at nr
  have r1 : 0.9999 * Real.sqrt q ≤ r ∧ 3 ≤ r := by constructor <;> (norm_num at *; linarith)
  have kq : 0 ≤ k * q := mul_nonneg hk.1 q0
  have kq1 : k * q ≤ 1 * 50.2 ^ 2 := mul_le_mul hk.2 q1 q0 (by norm_num)
  obtain ⟨n, en, n0, nn⟩ := round_pos kq (kq1.trans (by norm_num))
  rw [abs_le] at nn
  have rp : 0 < r := by linarith [r1.2]
  have kr : k * q ≤ 50.3 * (k * r) := by
    have h : q ≤ 50.3 * r := by
      have : Real.sqrt q * Real.sqrt q ≤ 50.2 * Real.sqrt q := by gcongr
      norm_num at *
      linarith
    have := mul_le_mul_of_nonneg_left h hk.1
    linarith
  have kr0 : 0 ≤ k * r := mul_nonneg hk.1 rp.le
  have d1 : n / r ≤ 50.4 * k + 1 / 10 ^ 8 := by
    rw [div_le_iff₀ rp]
    have e : (50.4 * k + 1 / 10 ^ 8) * r = 50.4 * (k * r) + r / 10 ^ 8 := by ring
    rw [e]
    have := r1.2
    norm_num at *
    linarith
  obtain ⟨d, ed, d0, nd⟩ := round_pos (r := n / r) (div_nonneg n0 rp.le) (d1.trans (by have := hk.2; norm_num; linarith))
  rw [abs_le] at nd
  have hk2 := hk.2
  have hk0 := hk.1
  have d2 : d ≤ 50.5 * k + 1 / 10 ^ 7 := by norm_num at *; linarith
  obtain ⟨x, ex, x0, nx⟩ := round_pos (r := 1 + d) (by linarith) (by norm_num at *; linarith)
  rw [abs_le] at nx
  have x1 : 0.999 ≤ x ∧ x ≤ 1.001 * (1 + 51 * k) := by constructor <;> (norm_num at *; linarith)
  have e1 : (fin k * fin q / Fl.sqrt (fin 20 + fin q) : Fl) = fin d := by
    rw [show (fin 20 + fin q : Fl) = fin y from (fin_add 20 q).trans ey]
    have : Fl.sqrt (fin y) = fin r := by
      simp only [Fl.sqrt, not_lt.mpr y0, if_false]
      exact er
    rw [this, show (fin k * fin q : Fl) = fin n from (fin_mul k q).trans en]
    exact (fin_div n r rp.ne').trans ed
  rw [e1, one_def, show (fin 1 + fin d : Fl) = fin x from (fin_add 1 d).trans ex]
  have mx0 : 0.999 ≤ m * x := by
    have := mul_le_mul hm.1 x1.1 (by norm_num) (by linarith)
    rw [one_mul] at this
    exact this
  have mx1 : m * x ≤ 1.001 * (m * (1 + 51 * k)) := by
    have := mul_le_mul_of_nonneg_left x1.2 (by linarith : 0 ≤ m)
    linarith
  have mk : m * (1 + 51 * k) ≤ 100 * 52 := mul_le_mul hm.2 (by linarith) (by linarith) (by norm_num)
  have mk0 : 1 ≤ m * (1 + 51 * k) := by nlinarith
  generalize m * (1 + 51 * k) = M at *
  obtain ⟨z, ez, z0, nz⟩ := round_pos (r := m * x) (by norm_num at *; linarith) (by norm_num at *; linarith)
  rw [abs_le] at nz
  exact ⟨z, (fin_mul m x).trans ez, z0, by norm_num at *; linarith, by norm_num at *; linarith⟩

/-- The rotation term is a number of size at most 2 if the mean hue is above 45. -/
theorem rotation_small {H g : Fl} (hH : ∃ r, H = fin r ∧ 45.4 ≤ r ∧ r ≤ 500) (hg : Within g 0 1) : letI := binary32
    Small ((-2) * g * sinf (Distance.toRad (60 * expf (powf (-(H - 275) / 25) 2)))) 2 := by
  letI := binary32
  haveI := binary32_fine
  obtain ⟨H, rfl, H0, H1⟩ := hH
  obtain ⟨g, rfl, -, g0, g1⟩ := hg
  obtain ⟨x, ex, nx⟩ := round_any (r := H - 275) (by rw [abs_le]; constructor <;> (norm_num at *; linarith))
  have hx : |H - 275| ≤ 229.6 := by rw [abs_le]; constructor <;> (norm_num at *; linarith)
  have x1 : |x| ≤ 229.601 := by
    have := abs_add_le (x - (H - 275)) (H - 275)
    rw [sub_add_cancel] at this
    generalize |H - 275| = P at *
    generalize |x| = Y at *
    generalize |x - (H - 275)| = Z at *
    norm_num at *
    linarith
  have hx2 : |-x / 25| ≤ 9.18405 := by
    rw [abs_div, abs_neg, abs_of_pos (by norm_num : (0 : ℝ) < 25), div_le_iff₀ (by norm_num)]
    generalize |x| = Y at *
    norm_num at *
    linarith
  obtain ⟨y, ey, ny⟩ := round_any (r := -x / 25) (hx2.trans (by norm_num))
  have y1 : |y| ≤ 9.185 := by
    have := abs_add_le (y - -x / 25) (-x / 25)
    rw [sub_add_cancel] at this
    generalize |-x / 25| = P at *
    generalize |y| = Y at *
    generalize |y - -x / 25| = Z at *
    norm_num at *
    linarith
  have y2 : y ^ 2 ≤ 9.185 ^ 2 := by rw [← sq_abs]; gcongr
  obtain ⟨z, ez, z0, nz⟩ := round_pos (r := y ^ 2) (by positivity) (y2.trans (by norm_num))
  rw [abs_le] at nz
  have z1 : z ≤ 84.4 := by norm_num at *; linarith
  have ex1 : Real.exp z ≤ 2 ^ 122 := by
    have : (2 : ℝ) ^ 122 = Real.exp (122 * Real.log 2) := by
      rw [mul_comm, Real.exp_mul, Real.exp_log (by norm_num)]
      norm_num
    rw [this]
    refine Real.exp_le_exp.mpr (z1.trans ?_)
    have := Real.log_two_gt_d9
    norm_num at *
    linarith
  have r122 := round_exact 1 122 (by norm_num) (by norm_num) (by norm_num [abs_of_pos])
  rw [show ((1 : ℤ) : ℝ) * 2 ^ (122 : ℤ) = 2 ^ 122 by norm_num] at r122
  have r124 := round_exact 15 124 (by norm_num) (by norm_num) (by norm_num [abs_of_pos])
  rw [show ((15 : ℤ) : ℝ) * 2 ^ (124 : ℤ) = 60 * 2 ^ 122 by norm_num] at r124
  obtain ⟨E, eE, E0, E1⟩ := round_keep round_zero r122 (Real.exp_pos z).le ex1
  obtain ⟨F, eF, F0, F1⟩ := round_keep (r := 60 * E) round_zero r124 (by linarith) (by linarith)
  have pi0 := Real.pi_gt_three
  have pi1 := Real.pi_lt_four
  obtain ⟨p, ep, p00, p0, p1⟩ := within_lit (k := Real.pi) (by linarith) (by linarith)
  obtain ⟨k, ek, k00, k0, k1⟩ := within_div (y := 180) (c := 180) (d := 180) ⟨p, ep, p00, p0, p1⟩ ⟨180, by simp, by norm_num, le_rfl, le_rfl⟩ (by norm_num; linarith) (by norm_num) (by norm_num; linarith)
  have k2 : k ≤ 1 := by refine k1.trans ?_; norm_num at *; linarith
  obtain ⟨G, eG, G0, G1⟩ := round_keep (r := F * k) round_zero r124 (mul_nonneg F0 k00) ((mul_le_mul F1 k2 k00 (by norm_num)).trans (le_of_eq (mul_one _)))
  obtain ⟨s, es, ns⟩ := trig (Real.abs_sin_le_one G)
  have r2 : round32 (-2) = fin (-2) := by have := round_nat (-2) (by norm_num); norm_num at *; exact this
  have r2' : round32 2 = fin 2 := by have := round_nat 2 (by norm_num); norm_num at *; exact this
  obtain ⟨m, em, m0, m1⟩ := round_keep (r := -2 * g) r2 round_zero (by linarith) (by linarith)
  have ms : |m * s| ≤ 2 := by
    rw [abs_mul, abs_of_nonpos m1]
    have := mul_le_mul (by linarith : -m ≤ 2) ns (abs_nonneg _) (by norm_num)
    linarith
  rw [abs_le] at ms
  obtain ⟨t, et, t0, t1⟩ := round_keep (r := m * s) r2 r2' ms.1 ms.2
  refine ⟨t, ?_, abs_le.mpr ⟨t0, t1⟩⟩
  have h2 : (2 : Fl) = fin 2 := by simp
  have h25 : (25 : Fl) = fin 25 := by simp
  have h275 : (275 : Fl) = fin 275 := by simp
  have h60 : (60 : Fl) = fin 60 := by simp
  rw [h275, show (fin H - fin 275 : Fl) = fin x from (fin_sub H 275).trans ex, h25, neg_fin, show (fin (-x) / fin 25 : Fl) = fin y from (fin_div (-x) 25 (by norm_num)).trans ey,
    h2, powf_two, show round32 (y ^ 2) = fin z from ez, show expf (fin z) = fin E from eE, h60, show (fin 60 * fin E : Fl) = fin F from (fin_mul 60 E).trans eF, Distance.toRad, ek,
    show (fin F * fin k : Fl) = fin G from (fin_mul F k).trans eG, show sinf (fin G) = fin s from es, neg_fin, show (fin (-2) * fin g : Fl) = fin m from (fin_mul _ _).trans em]
  exact (fin_mul m s).trans et

/-- The mean of two hues from green to blue. -/
theorem mean_left {n n' : ℤ} (h0 : 89 ≤ n) (h1 : n ≤ 271) (h0' : 89 ≤ n') (h1' : n' ≤ 271) : letI := binary32
    ∃ r, Distance.meanHue n n' = fin r ∧ 45.4 ≤ r ∧ r ≤ 500 := by
  letI := binary32
  haveI := binary32_fine
  have e0 : Distance.ofInt (n + n') = fin ((n + n' : ℤ) : ℝ) := round_nat _ (by rw [abs_le]; omega)
  have lo : (178 : ℝ) ≤ ((n + n' : ℤ) : ℝ) := by exact_mod_cast (by omega : 178 ≤ n + n')
  have hi : ((n + n' : ℤ) : ℝ) ≤ 542 := by exact_mod_cast (by omega : n + n' ≤ 542)
  have h2 : (2 : Fl) = fin 2 := by simp
  have h360 : (360 : Fl) = fin 360 := by simp
  unfold Distance.meanHue
  rw [e0]
  generalize ((n + n' : ℤ) : ℝ) = s at *
  have half : ∀ x : ℝ, 178 ≤ x → x ≤ 910 → ∃ r, (fin x / 2 : Fl) = fin r ∧ 45.4 ≤ r ∧ r ≤ 500 := by
    intro x x0 x1
    obtain ⟨r, e, -, nr⟩ := round_pos (r := x / 2) (by linarith) (by norm_num; linarith)
    rw [abs_le] at nr
    exact ⟨r, by rw [h2]; exact (fin_div x 2 (by norm_num)).trans e, by norm_num at *; linarith, by norm_num at *; linarith⟩
  split
  · obtain ⟨y, e, -, ny⟩ := round_pos (r := s + 360) (by linarith) (by norm_num; linarith)
    rw [abs_le] at ny
    rw [h360, show (fin s + fin 360 : Fl) = fin y from (fin_add s 360).trans e]
    exact half y (by norm_num at *; linarith) (by norm_num at *; linarith)
  · exact half s lo (by linarith)

theorem delta_small {n n' : ℤ} (h0 : 89 ≤ n) (h1 : n ≤ 271) (h0' : 89 ≤ n') (h1' : n' ≤ 271) : |Distance.deltaHue n n'| ≤ 400 := by
  unfold Distance.deltaHue
  rw [abs_le]
  split_ifs <;> omega

/-- The sine of half the hue difference. -/
theorem sin_small {m : ℤ} (h : |m| ≤ 400) : letI := binary32; Small (sinf (Distance.toRad (Distance.ofInt m / 2))) 1 := by
  letI := binary32
  haveI := binary32_fine
  have e0 : Distance.ofInt m = fin (m : ℝ) := round_nat _ (h.trans (by norm_num))
  have hm : |(m : ℝ)| ≤ 400 := by exact_mod_cast h
  rw [e0]
  obtain ⟨y, e, -⟩ := rad_small (small_div (x := fin (m : ℝ)) (y := 2) (c := 2) (d := 2) ⟨_, rfl, hm⟩ ⟨2, by simp, by norm_num, le_rfl, le_rfl⟩ (by norm_num) (by norm_num)) (by norm_num)
  obtain ⟨z, ez, nz⟩ := trig (Real.abs_sin_le_one y)
  exact ⟨z, by rw [e]; exact ez, nz⟩

/-- All parts of the formula are numbers for colours from green to blue. -/
theorem parts {p q : Color} {l a b l' a' b' kL k1 k2 kC kH : ℝ} (hp : p.comps = [fin l, fin a, fin b]) (hq : q.comps = [fin l', fin a', fin b'])
    (ea : round32 a = fin a) (ea' : round32 a' = fin a') (hl : 0 ≤ l ∧ l ≤ 100) (hl' : 0 ≤ l' ∧ l' ≤ 100) (ha : -128 ≤ a ∧ a ≤ 0) (hb : |b| ≤ 128) (ha' : -128 ≤ a' ∧ a' ≤ 0) (hb' : |b'| ≤ 128)
    (hn : a ≠ 0 ∨ b ≠ 0) (hn' : a' ≠ 0 ∨ b' ≠ 0) (h0 : 1 ≤ kL ∧ kL ≤ 100) (h1 : 0 ≤ k1 ∧ k1 ≤ 1) (h2 : 0 ≤ k2 ∧ k2 ≤ 1) (h3 : 1 ≤ kC ∧ kC ≤ 100) (h4 : 1 ≤ kH ∧ kH ≤ 100) : letI := binary32
    ∃ (n n' : ℤ) (SL SC SH rt : Fl), Distance.cie00 (fin kL) (fin k1) (fin k2) (fin kC) (fin kH) p q = ok (Fl.sqrt (powf ((fin l' - fin l) / SL) 2 +
        powf ((Distance.chroma (fin a') (fin b') - Distance.chroma (fin a) (fin b)) / SC) 2 +
        powf (2 * Fl.sqrt (Distance.chroma (fin a) (fin b) * Distance.chroma (fin a') (fin b')) * sinf (Distance.toRad (Distance.ofInt (Distance.deltaHue n n') / 2)) / SH) 2 +
        rt * ((Distance.chroma (fin a') (fin b') - Distance.chroma (fin a) (fin b)) / SC) *
          (2 * Fl.sqrt (Distance.chroma (fin a) (fin b) * Distance.chroma (fin a') (fin b')) * sinf (Distance.toRad (Distance.ofInt (Distance.deltaHue n n') / 2)) / SH))) ∧
      Within SL 0.99 (1.01 * (kL * (1 + 51 * k2))) ∧ Within SC 0.99 500000 ∧ Within SH 0.99 500000 ∧ Small rt 2 ∧ |Distance.deltaHue n n'| ≤ 400 ∧ (a = a' → b = b' → n = n') := by
  letI := binary32
  haveI := binary32_fine
  haveI := binary32_square
  have ch : ∀ x y : ℝ, |x| ≤ 128 → |y| ≤ 128 → Within (Distance.chroma (fin x) (fin y)) 0 1000 := by
    intro x y hx hy
    obtain ⟨c, e, c0, n⟩ := Distance.chroma_near (hx.trans (by norm_num)) (hy.trans (by norm_num))
    have : Real.sqrt (x ^ 2 + y ^ 2) ≤ 200 := by
      rw [Real.sqrt_le_left (by norm_num)]
      have e1 : x ^ 2 ≤ 128 ^ 2 := by rw [← sq_abs]; gcongr
      have e2 : y ^ 2 ≤ 128 ^ 2 := by rw [← sq_abs]; gcongr
      linarith
    rw [abs_le] at n
    refine ⟨c, e, c0, c0, ?_⟩
    norm_num at *
    linarith
  have wc := ch a b (by rw [abs_le]; constructor <;> linarith) hb
  have wc' := ch a' b' (by rw [abs_le]; constructor <;> linarith) hb'
  have wA := avg_within wc wc'
  have hg := g_within wA
  obtain ⟨t, et, t0⟩ := stretch_neg ea ha.2 ha.1 hg
  obtain ⟨t', et', t0'⟩ := stretch_neg ea' ha'.2 ha'.1 hg
  have ne : ∀ {x y z : ℝ}, x ≤ 0 → y ≤ x → x ≠ 0 ∨ z ≠ 0 → y ≠ 0 ∨ z ≠ 0 := by
    rintro x y z hx hy (h | h)
    · exact .inl (by have := lt_of_le_of_ne hx h; linarith)
    · exact .inr h
  obtain ⟨n, en, n0, n1⟩ := hue_left (t0.trans ha.2) (ne ha.2 t0 hn)
  obtain ⟨n', en', n0', n1'⟩ := hue_left (t0'.trans ha'.2) (ne ha'.2 t0' hn')
  obtain ⟨H, eH, H0, H1⟩ := mean_left n0 n1 n0' n1'
  have sH : Small (fin H) 500 := ⟨H, rfl, by rw [abs_le]; constructor <;> (norm_num at *; linarith)⟩
  have wL := light_within h2 h0 hl hl'
  have wC := (weight_within h1 h3 wA (T_within sH)).1
  have wH := (weight_within h2 h4 wA (T_within sH)).2
  have rt := rotation_small ⟨H, rfl, H0, H1⟩ hg
  refine ⟨n, n', _, _, _, _, ?_, wL, wC, wH, rt, delta_small n0 n1 n0' n1', ?_⟩
  · obtain ⟨cls, ct, comps, al, mx, mn, sp⟩ := p
    obtain ⟨cls', ct', comps', al', mx', mn', sp'⟩ := q
    simp only at hp hq
    subst hp hq
    simp only [Distance.cie00, Conv.get3_0, Conv.get3_1, Conv.get3_2, ok_bind, et, et', en, en', eH]
  · rintro rfl rfl
    rw [et] at et'
    obtain rfl := Fl.fin.inj et'
    rw [en] at en'
    exact ok_inj.mp en'

/-- The difference of colours from green to blue with the same components is zero. -/
theorem cie00_zero {p q : Color} {l a b kL k1 k2 kC kH : ℝ} (hp : p.comps = [fin l, fin a, fin b]) (hq : q.comps = [fin l, fin a, fin b])
    (ea : round32 a = fin a) (hl : 0 ≤ l ∧ l ≤ 100) (ha : -128 ≤ a ∧ a ≤ 0) (hb : |b| ≤ 128) (hn : a ≠ 0 ∨ b ≠ 0)
    (h0 : 1 ≤ kL ∧ kL ≤ 100) (h1 : 0 ≤ k1 ∧ k1 ≤ 1) (h2 : 0 ≤ k2 ∧ k2 ≤ 1) (h3 : 1 ≤ kC ∧ kC ≤ 100) (h4 : 1 ≤ kH ∧ kH ≤ 100) : letI := binary32
    Distance.cie00 (fin kL) (fin k1) (fin k2) (fin kC) (fin kH) p q = ok (fin 0) := by
  letI := binary32
  haveI := binary32_fine
  haveI := binary32_square
  obtain ⟨n, n', SL, SC, SH, rt, e, ⟨sl, rfl, -, sl0, -⟩, ⟨sc, rfl, -, sc0, -⟩, ⟨sh, rfl, -, sh0, -⟩, ⟨r, rfl, -⟩, -, hnn⟩ := parts hp hq ea ea hl hl ha hb ha hb hn hn h0 h1 h2 h3 h4
  obtain rfl := hnn rfl rfl
  rw [e]
  obtain ⟨c, ec, c0, nc⟩ := Distance.chroma_near (a := a) (b := b) (by rw [abs_le]; constructor <;> linarith) (hb.trans (by norm_num))
  have C1 : Real.sqrt (a ^ 2 + b ^ 2) ≤ 200 := by
    rw [Real.sqrt_le_left (by norm_num)]
    have e1 : a ^ 2 ≤ 128 ^ 2 := by nlinarith
    have e2 : b ^ 2 ≤ 128 ^ 2 := by rw [← sq_abs]; gcongr
    linarith
  have c1 : c ≤ 300 := by rw [abs_le] at nc; norm_num at *; linarith
  have z : ∀ u : ℝ, fin u - fin u = fin 0 := fun u => (fin_sub u u).trans (by rw [sub_self]; exact FloatModel.rnd_zero)
  have d : ∀ u : ℝ, (0.99 : ℝ) ≤ u → fin 0 / fin u = fin 0 := fun u hu => (fin_div 0 u (by intro h; rw [h] at hu; norm_num at hu)).trans (by rw [zero_div]; exact FloatModel.rnd_zero)
  have z0 : ∀ u : ℝ, fin u * fin 0 = fin 0 := fun u => (fin_mul u 0).trans (by rw [mul_zero]; exact FloatModel.rnd_zero)
  have p0 : powf (fin 0) 2 = fin 0 := by
    have h2 : (2 : Fl) = fin 2 := by simp
    rw [h2, Binary32.powf_two]; norm_num [Binary32.round_zero]
  have a0 : fin 0 + fin 0 = fin 0 := (fin_add 0 0).trans (by rw [add_zero]; exact FloatModel.rnd_zero)
  have q0 : Fl.sqrt (fin 0) = fin 0 := by simp [Fl.sqrt, FloatModel.rnd_zero]
  have dz : Distance.deltaHue n n = 0 := by simp [Distance.deltaHue]
  have s0 : sinf (Distance.toRad (Distance.ofInt 0 / 2)) = fin 0 := by
    have e0 : Distance.ofInt 0 = fin 0 := by simp only [Distance.ofInt, Int.cast_zero]; exact FloatModel.rnd_zero
    have h2 : (2 : Fl) = fin 2 := by simp
    have h180 : (180 : Fl) = fin 180 := by simp
    obtain ⟨pp, ep, p00, -, -⟩ := within_lit (k := Real.pi) Real.pi_pos.le (by linarith [Real.pi_lt_four])
    have pb : pp / 180 ≤ 2 ^ 60 ∧ 0 ≤ pp / 180 := by
      obtain ⟨y, ey, -, -, y1⟩ := within_lit (k := Real.pi) Real.pi_pos.le (by linarith [Real.pi_lt_four])
      rw [ep] at ey
      obtain rfl := Fl.fin.inj ey
      have := Real.pi_lt_four
      constructor
      · norm_num at *; linarith
      · positivity
    obtain ⟨k, ek, -, -⟩ := round_pos pb.2 pb.1
    have ez : (fin 0 * fin k : Fl) = fin 0 := (fin_mul 0 k).trans (by rw [zero_mul]; exact FloatModel.rnd_zero)
    rw [e0, h2, d 2 (by norm_num), Distance.toRad, ep, h180, show (fin pp / fin 180 : Fl) = fin k from (fin_div pp 180 (by norm_num)).trans ek, ez]
    change round32 (Real.sin 0) = _
    rw [Real.sin_zero]
    exact round_zero
  rw [dz, s0, ec]
  obtain ⟨m, em, m00, -, m1⟩ := within_mul (x := fin c) (y := fin c) (a := 0) (c := 0) (b := 300) (d := 300) ⟨c, rfl, c0, c0, c1⟩ ⟨c, rfl, c0, c0, c1⟩ le_rfl le_rfl (by norm_num) (by norm_num)
  obtain ⟨r', er, r0, -, r1⟩ := within_sqrt (x := fin m) ⟨m, rfl, m00, m00, m1⟩ (by norm_num)
  have r2 : r' ≤ 2 ^ 20 := r1.trans (by
    have : Real.sqrt (1.001 * (300 * 300) + 1 / 10 ^ 8) ≤ 400 := by rw [Real.sqrt_le_left (by norm_num)]; norm_num
    norm_num at *
    linarith)
  obtain ⟨v, ev, -⟩ := within_mul (x := 2) (a := 0) (b := 2) (y := fin r') (c := 0) ⟨2, by simp, by norm_num, by norm_num, le_rfl⟩ ⟨r', rfl, r0, r0, r2⟩ le_rfl le_rfl (by norm_num) (by norm_num)
  rw [em, er, ev]
  simp only [z, z0, p0, a0, q0, d _ sl0, d _ sc0, d _ sh0]

set_option maxHeartbeats 1600000 in
/-- The root of the sum is a number if the lightness part is large enough. -/
theorem root_number {x y z r B : ℝ} (hx : |x| ≤ 200) (hy : y ^ 2 ≤ B) (hz : z ^ 2 ≤ B) (hB : B ≤ 10 ^ 7) (hr : |r| ≤ 2) (h : B / 10 ^ 4 + 1 / 10 ^ 4 ≤ x ^ 2) : letI := binary32
    ∃ d, Fl.sqrt (powf (fin x) 2 + powf (fin y) 2 + powf (fin z) 2 + fin r * fin y * fin z) = fin d ∧ 0 ≤ d := by
  letI := binary32
  haveI := binary32_fine
  have h2 : (2 : Fl) = fin 2 := by simp
  have B0 : 0 ≤ B := (sq_nonneg y).trans hy
  have x2 : x ^ 2 ≤ 200 ^ 2 := by rw [← sq_abs]; gcongr
  have xn := sq_nonneg x
  have yn := sq_nonneg y
  have zn := sq_nonneg z
  obtain ⟨X, eX, X0, nX⟩ := round_pos (r := x ^ 2) xn (x2.trans (by norm_num))
  obtain ⟨Y, eY, Y0, nY⟩ := round_pos (r := y ^ 2) yn (hy.trans (hB.trans (by norm_num)))
  obtain ⟨Z, eZ, Z0, nZ⟩ := round_pos (r := z ^ 2) zn (hz.trans (hB.trans (by norm_num)))
  rw [abs_le] at nX nY nZ
  obtain ⟨R, s0, ss, y1, z1⟩ : ∃ R : ℝ, 0 ≤ R ∧ R * R = B ∧ |y| ≤ R ∧ |z| ≤ R := ⟨Real.sqrt B, Real.sqrt_nonneg B, Real.mul_self_sqrt B0, Real.abs_le_sqrt hy, Real.abs_le_sqrt hz⟩
  have sB : R ≤ 4000 := by by_contra h'; have := mul_self_le_mul_self (by norm_num : (0 : ℝ) ≤ 4000) (not_le.mp h').le; norm_num at *; linarith
  have sB2 : R ≤ B + 1 := by nlinarith [sq_nonneg (R - 1)]
  have ry : |r * y| ≤ 2 * R := by rw [abs_mul]; exact mul_le_mul hr y1 (abs_nonneg _) (by norm_num)
  obtain ⟨u, eu, nu⟩ := round_any (r := r * y) (ry.trans (by norm_num; linarith))
  have nu' : |u - r * y| ≤ 2 * R / 10 ^ 6 + 1 / 10 ^ 9 := nu.trans (by gcongr)
  have u1 : |u| ≤ 2.001 * R + 1 / 10 ^ 9 := by
    have := abs_add_le (u - r * y) (r * y)
    rw [sub_add_cancel] at this
    generalize |u - r * y| = P at *
    generalize |r * y| = Q at *
    generalize |u| = U at *
    norm_num at *
    linarith
  have uz : |u * z| ≤ 2.002 * B + 1 / 10 ^ 5 := by
    rw [abs_mul]
    have := mul_le_mul u1 z1 (abs_nonneg _) (by positivity)
    refine this.trans ?_
    have e : (2.001 * R + 1 / 10 ^ 9) * R = 2.001 * (R * R) + R / 10 ^ 9 := by ring
    rw [e, ss]
    norm_num at *
    linarith
  have uz' : |u * z - r * y * z| ≤ 2 * B / 10 ^ 6 + 1 / 10 ^ 5 := by
    rw [← sub_mul, abs_mul]
    have := mul_le_mul nu' z1 (abs_nonneg _) (by positivity)
    refine this.trans ?_
    have e : (2 * R / 10 ^ 6 + 1 / 10 ^ 9) * R = 2 * (R * R) / 10 ^ 6 + R / 10 ^ 9 := by ring
    rw [e, ss]
    norm_num at *
    linarith
  obtain ⟨v, ev, nv⟩ := round_any (r := u * z) (uz.trans (by norm_num at *; linarith))
  have nv' : |v - u * z| ≤ (2.002 * B + 1 / 10 ^ 5) / 10 ^ 6 + 1 / 10 ^ 9 := nv.trans (by gcongr)
  have y2n : y ^ 2 ≤ 10 ^ 7 := hy.trans hB
  have z2n : z ^ 2 ≤ 10 ^ 7 := hz.trans hB
  have yz : -(y ^ 2 + z ^ 2) ≤ r * y * z := by
    have a := abs_le.mp hr
    have h1 : 0 ≤ (y + z) ^ 2 := sq_nonneg _
    have h2 : 0 ≤ (y - z) ^ 2 := sq_nonneg _
    rcases le_total 0 (y * z) with hh | hh
    · have : -2 * (y * z) ≤ r * (y * z) := by gcongr; exact a.1
      nlinarith
    · have : 2 * (y * z) ≤ r * (y * z) := by
        have := mul_le_mul_of_nonpos_right a.2 hh
        linarith
      nlinarith
  rw [h2, powf_two, powf_two, powf_two, show round32 (x ^ 2) = fin X from eX, show round32 (y ^ 2) = fin Y from eY, show round32 (z ^ 2) = fin Z from eZ,
    show (fin r * fin y : Fl) = fin u from (fin_mul r y).trans eu, show (fin u * fin z : Fl) = fin v from (fin_mul u z).trans ev]
  rw [abs_le] at nv' uz' uz
  clear eX eY eZ eu ev nu nu' u1 nv ry y1 z1 h2 ss hr hx
  generalize r * y * z = T at *
  generalize u * z = U at *
  generalize x ^ 2 = x2 at *
  generalize y ^ 2 = y2 at *
  generalize z ^ 2 = z2 at *
  obtain ⟨S, eS, S0, nS⟩ := round_pos (r := X + Y) (by linarith) (by norm_num at *; linarith)
  rw [abs_le] at nS
  obtain ⟨S', eS', S0', nS'⟩ := round_pos (r := S + Z) (by linarith) (by norm_num at *; linarith)
  rw [abs_le] at nS'
  have W0 : 0 ≤ S' + v := by norm_num at *; linarith
  have W1 : S' + v ≤ 2 ^ 50 := by
    norm_num at *; linarith
  obtain ⟨W, eW, Wn, -⟩ := round_pos W0 (W1.trans (by norm_num))
  have Wb : W ≤ 2 ^ 60 := by
    obtain ⟨W', eW', -, nW⟩ := round_pos W0 (W1.trans (by norm_num))
    rw [eW] at eW'
    obtain rfl := Fl.fin.inj eW'
    rw [abs_le] at nW
    norm_num at *
    linarith
  have rW : Real.sqrt W ≤ 2 ^ 30 := by rw [Real.sqrt_le_left (by norm_num)]; exact Wb.trans (by norm_num)
  obtain ⟨d, ed, d0, -⟩ := round_pos (Real.sqrt_nonneg W) (rW.trans (by norm_num))
  refine ⟨d, ?_, d0⟩
  rw [show (fin X + fin Y : Fl) = fin S from (fin_add X Y).trans eS,
    show (fin S + fin Z : Fl) = fin S' from (fin_add S Z).trans eS', show (fin S' + fin v : Fl) = fin W from (fin_add S' v).trans eW]
  simp only [Fl.sqrt, not_lt.mpr Wn, if_false]
  exact ed

set_option maxHeartbeats 3200000 in
/-- The difference of colours from green to blue is a number if their lightness differs enough. -/
theorem cie00_number {p q : Color} {l a b l' a' b' kL k1 k2 kC kH C C' : ℝ} (hp : p.comps = [fin l, fin a, fin b]) (hq : q.comps = [fin l', fin a', fin b'])
    (ea : round32 a = fin a) (ea' : round32 a' = fin a') (hl : 0 ≤ l ∧ l ≤ 100) (hl' : 0 ≤ l' ∧ l' ≤ 100) (ha : -128 ≤ a ∧ a ≤ 0) (hb : |b| ≤ 128) (ha' : -128 ≤ a' ∧ a' ≤ 0) (hb' : |b'| ≤ 128)
    (hn : a ≠ 0 ∨ b ≠ 0) (hn' : a' ≠ 0 ∨ b' ≠ 0) (h0 : 1 ≤ kL ∧ kL ≤ 100) (h1 : 0 ≤ k1 ∧ k1 ≤ 1) (h2 : 0 ≤ k2 ∧ k2 ≤ 1) (h3 : 1 ≤ kC ∧ kC ≤ 100) (h4 : 1 ≤ kH ∧ kH ≤ 100)
    (hC : C = Real.sqrt (a ^ 2 + b ^ 2)) (hC' : C' = Real.sqrt (a' ^ 2 + b' ^ 2)) (hh : (C + C') ^ 2 / 1000 + 1 / 100 ≤ ((l - l') / (kL * (1 + 51 * k2))) ^ 2) : letI := binary32
    ∃ d, Distance.cie00 (fin kL) (fin k1) (fin k2) (fin kC) (fin kH) p q = ok (fin d) ∧ 0 ≤ d := by
  letI := binary32
  haveI := binary32_fine
  haveI := binary32_square
  obtain ⟨n, n', SL, SC, SH, rt, e, ⟨sl, rfl, -, sl0, sl1⟩, wC, wH, ⟨r, rfl, hr⟩, hd, -⟩ := parts hp hq ea ea' hl hl' ha hb ha' hb' hn hn' h0 h1 h2 h3 h4
  rw [e]
  have bound : ∀ x y : ℝ, |x| ≤ 128 → |y| ≤ 128 → Real.sqrt (x ^ 2 + y ^ 2) ≤ 200 := by
    intro x y hx hy
    rw [Real.sqrt_le_left (by norm_num)]
    have e1 : x ^ 2 ≤ 128 ^ 2 := by rw [← sq_abs]; gcongr
    have e2 : y ^ 2 ≤ 128 ^ 2 := by rw [← sq_abs]; gcongr
    linarith
  have aa : |a| ≤ 128 := by rw [abs_le]; constructor <;> linarith
  have aa' : |a'| ≤ 128 := by rw [abs_le]; constructor <;> linarith
  obtain ⟨c, ec, c0, nc⟩ := Distance.chroma_near (a := a) (b := b) (aa.trans (by norm_num)) (hb.trans (by norm_num))
  obtain ⟨c', ec', c0', nc'⟩ := Distance.chroma_near (a := a') (b := b') (aa'.trans (by norm_num)) (hb'.trans (by norm_num))
  have C1 : C ≤ 200 := hC ▸ bound _ _ aa hb
  have C1' : C' ≤ 200 := hC' ▸ bound _ _ aa' hb'
  have C0 : 0 ≤ C := hC ▸ Real.sqrt_nonneg _
  have C0' : 0 ≤ C' := hC' ▸ Real.sqrt_nonneg _
  rw [← hC, abs_le] at nc
  rw [← hC', abs_le] at nc'
  have cu : c ≤ 1.001 * C + 1 / 10 ^ 6 := by norm_num at *; linarith
  have cu' : c' ≤ 1.001 * C' + 1 / 10 ^ 6 := by norm_num at *; linarith
  rw [ec, ec']
  set M : ℝ := C + C' with hM
  have M0 : 0 ≤ M := by linarith
  have M1 : M ≤ 400 := by linarith
  -- the chroma part
  obtain ⟨y, ey, ny⟩ : Small ((fin c' - fin c : Fl) / SC) (1.1 * M + 0.001) := by
    obtain ⟨u, eu, nu⟩ := small_rnd (r := c' - c) (B := 1.001 * M + 1 / 10 ^ 6) (by rw [abs_le]; constructor <;> (norm_num at *; linarith)) (by norm_num; linarith)
    obtain ⟨v, ev, nv⟩ := small_div (x := fin u) ⟨u, rfl, nu⟩ wC (by norm_num) (by norm_num; linarith)
    refine ⟨v, by rw [show (fin c' - fin c : Fl) = fin u from (fin_sub c' c).trans eu]; exact ev, nv.trans ?_⟩
    norm_num
    linarith
  -- the hue part
  obtain ⟨z, ez, nz⟩ : Small (2 * Fl.sqrt (fin c * fin c') * sinf (Distance.toRad (Distance.ofInt (Distance.deltaHue n n') / 2)) / SH) (1.1 * M + 0.001) := by
    have cc : c * c' ≤ ((c + c') / 2) ^ 2 := by nlinarith [sq_nonneg (c - c')]
    have cb : (c + c') / 2 ≤ (1.001 * M + 2 / 10 ^ 6) / 2 := by norm_num at *; linarith
    have cc2 : ((c + c') / 2) ^ 2 ≤ ((1.001 * M + 2 / 10 ^ 6) / 2) ^ 2 := by gcongr
    set K : ℝ := (1.001 * M + 2 / 10 ^ 6) / 2 with hK
    have K0 : 0 ≤ K := by rw [hK]; positivity
    have K1 : K ≤ 300 := by rw [hK]; norm_num; linarith
    have K2 : K ^ 2 ≤ 300 ^ 2 := by gcongr
    obtain ⟨m, em, m0, nm⟩ := round_pos (r := c * c') (mul_nonneg c0 c0') ((cc.trans cc2).trans (K2.trans (by norm_num)))
    rw [abs_le] at nm
    have m1 : m ≤ (1.001 * K + 1 / 10 ^ 4) ^ 2 := by
      have e : (1.001 * K + 1 / 10 ^ 4) ^ 2 = 1.002001 * K ^ 2 + 2.002 / 10 ^ 4 * K + 1 / 10 ^ 8 := by ring
      rw [e]
      norm_num at *
      linarith
    have sm : Real.sqrt m ≤ 1.001 * K + 1 / 10 ^ 4 := by rw [Real.sqrt_le_left (by positivity)]; exact m1
    have es : Small (Fl.sqrt (fin c * fin c')) (1.003 * K + 2 / 10 ^ 4) := by
      rw [show (fin c * fin c' : Fl) = fin m from (fin_mul c c').trans em]
      obtain ⟨w, ew, nw⟩ := small_rnd (r := Real.sqrt m) (B := 1.001 * K + 1 / 10 ^ 4) (by rw [abs_of_nonneg (Real.sqrt_nonneg m)]; exact sm) (by norm_num; linarith)
      refine ⟨w, ?_, nw.trans (by norm_num; linarith)⟩
      simp only [Fl.sqrt, not_lt.mpr m0, if_false]
      exact ew
    obtain ⟨w1, ew1, nw1⟩ := small_mul (x := 2) (A := 2) ⟨2, by simp, by norm_num [abs_of_pos]⟩ es (by norm_num; linarith)
    obtain ⟨w2, ew2, nw2⟩ := small_mul (x := fin w1) ⟨w1, rfl, nw1⟩ (sin_small hd) (by norm_num; linarith)
    obtain ⟨w3, ew3, nw3⟩ := small_div (x := fin w2) ⟨w2, rfl, nw2⟩ wH (by norm_num) (by norm_num; linarith)
    refine ⟨w3, by rw [ew1, ew2]; exact ew3, nw3.trans ?_⟩
    rw [hK]
    norm_num
    linarith
  -- the lightness part
  have D0 : 1 ≤ kL * (1 + 51 * k2) := by nlinarith [h0.1, h2.1, mul_nonneg (by linarith [h0.1] : 0 ≤ kL) h2.1]
  generalize hD : kL * (1 + 51 * k2) = D at *
  have slp : 0 < sl := by norm_num at *; linarith
  obtain ⟨u, eu, nu⟩ := round_any (r := l' - l) (by rw [abs_le]; constructor <;> (norm_num; linarith))
  have al : |l' - l| ≤ 100 := by rw [abs_le]; constructor <;> linarith
  have ul : |l' - l| - (|l' - l| / 10 ^ 6 + 1 / 10 ^ 9) ≤ |u| ∧ |u| ≤ 101 := by
    have t1 := abs_sub_abs_le_abs_sub (l' - l) u
    have t2 := abs_sub_abs_le_abs_sub u (l' - l)
    rw [abs_sub_comm (l' - l) u] at t1
    generalize |l' - l| = P at *
    generalize |u| = Q at *
    generalize |u - (l' - l)| = R at *
    constructor <;> (norm_num at *; linarith)
  have us : |u / sl| ≤ 105 := by
    rw [abs_div, abs_of_pos slp, div_le_iff₀ slp]
    have := ul.2
    generalize |u| = Q at *
    norm_num at *
    linarith
  have usl : 0.98 * (|l - l'| / D) - 1 / 10 ^ 6 ≤ |u / sl| := by
    rw [abs_sub_comm l l', abs_div, abs_of_pos slp, le_div_iff₀ slp]
    have Dp : 0 < D := by linarith
    have q : |l' - l| / D * D = |l' - l| := div_mul_cancel₀ _ Dp.ne'
    have q0 : 0 ≤ |l' - l| / D := by positivity
    have := mul_le_mul_of_nonneg_left sl1 q0
    have e : |l' - l| / D * (1.01 * D) = 1.01 * (|l' - l| / D * D) := by ring
    rw [e, q] at this
    have h := ul.1
    have e2 : (0.98 * (|l' - l| / D) - 1 / 10 ^ 6) * sl = 0.98 * (|l' - l| / D * sl) - sl / 10 ^ 6 := by ring
    rw [e2]
    have P0 := abs_nonneg (l' - l)
    clear e e2 q q0
    generalize |l' - l| / D * sl = T at *
    generalize |l' - l| = P at *
    generalize |u| = Q at *
    norm_num at *
    linarith
  obtain ⟨x, ex, nx⟩ := round_any (r := u / sl) (us.trans (by norm_num))
  have xl : |u / sl| - (|u / sl| / 10 ^ 6 + 1 / 10 ^ 9) ≤ |x| ∧ |x| ≤ 200 := by
    have t1 := abs_sub_abs_le_abs_sub (u / sl) x
    have t2 := abs_sub_abs_le_abs_sub x (u / sl)
    rw [abs_sub_comm (u / sl) x] at t1
    generalize |u / sl| = P at *
    generalize |x| = Q at *
    generalize |x - u / sl| = R at *
    constructor <;> (norm_num at *; linarith)
  have Q0 : 0 ≤ |l - l'| / D := by positivity
  have hQ : M ^ 2 / 1000 + 1 / 100 ≤ (|l - l'| / D) ^ 2 := by
    rw [div_pow, sq_abs, ← div_pow]; exact hh
  have xq : 0.97 * (|l - l'| / D) - 2 / 10 ^ 6 ≤ |x| := by
    have := xl.1
    generalize |l - l'| / D = Q at *
    generalize |u / sl| = P at *
    generalize |x| = X at *
    norm_num at *
    linarith
  have Q1 : 1 / 10 ≤ |l - l'| / D := by
    generalize |l - l'| / D = Q at *
    by_contra h
    have : Q ^ 2 < (1 / 10) ^ 2 := by gcongr; exact not_le.mp h
    have n1 := sq_nonneg M
    generalize M ^ 2 = MM at *
    norm_num at this hQ
    linarith
  have xx : 0.9 * (|l - l'| / D) ^ 2 ≤ x ^ 2 := by
    have h1 : 0.96 * (|l - l'| / D) ≤ |x| := by
      generalize |l - l'| / D = Q at *
      generalize |x| = X at *
      norm_num at *
      linarith
    have h2 : (0.96 * (|l - l'| / D)) ^ 2 ≤ |x| ^ 2 := by gcongr
    rw [sq_abs, mul_pow] at h2
    have n1 := sq_nonneg (|l - l'| / D)
    generalize (|l - l'| / D) ^ 2 = QQ at *
    norm_num at *
    linarith
  have sq : ∀ w : ℝ, |w| ≤ 1.1 * M + 0.001 → w ^ 2 ≤ 2 * M ^ 2 + 1 := by
    intro w hw
    have : |w| ^ 2 ≤ (1.1 * M + 0.001) ^ 2 := by gcongr
    rw [sq_abs] at this
    norm_num at *
    nlinarith [sq_nonneg (M - 1)]
  have M2 : M ^ 2 ≤ 400 ^ 2 := by gcongr
  obtain ⟨d, ed, d0⟩ := root_number (x := x) xl.2 (sq y ny) (sq z nz) (by norm_num at M2 ⊢; linarith) hr (by
    have n1 := sq_nonneg M
    refine le_trans ?_ xx
    generalize M ^ 2 = MM at *
    generalize (|l - l'| / D) ^ 2 = QQ at *
    norm_num at hQ ⊢
    linarith)
  refine ⟨d, ?_, d0⟩
  rw [ey, ez, show (fin l' - fin l : Fl) = fin u from (fin_sub l' l).trans eu, show (fin u / fin sl : Fl) = fin x from (fin_div u sl slp.ne').trans ex, ed]

end Cie00Near

import Mathlib.Analysis.Complex.ExponentialBounds
import Verif.CmcNear
import Verif.MixNear

/-!
# CIEDE2000 in binary32

The rotation term of the formula takes the exponential of a square that is as large as 121.  Sixty times the exponential overflows from about 84.63 on.
-/

open Outcome Fl

namespace Cie00Near

open Binary32 CmcNear

/-- Sixty times the exponential of a number from 84.635 on overflows, though the exponential may not. -/
theorem exp_over {x : ℝ} (h : 84.635 ≤ x) : letI := binary32; (60 * expf (fin x) : Fl) = .pinf := by
  letI := binary32
  have h60 : (60 : Fl) = fin 60 := by simp
  have h2 : (137 : ℝ) * 2 ^ 115 ≤ Real.exp x := by
    have e : (137 : ℝ) * 2 ^ 115 = Real.exp (Real.log (137 / 128) + 122 * Real.log 2) := by
      rw [Real.exp_add, Real.exp_log (by norm_num), mul_comm (122 : ℝ), Real.exp_mul, Real.exp_log (by norm_num)]
      norm_num
    rw [e]
    refine Real.exp_le_exp.mpr (le_trans ?_ h)
    have := Real.log_two_lt_d9
    have := Real.log_le_sub_one_of_pos (x := 137 / 128) (by norm_num)
    norm_num at *
    linarith
  have hx := value_exact 137 115 (by norm_num) (by norm_num)
  have e : ((137 : ℤ) : ℝ) * 2 ^ (115 : ℤ) = 137 * 2 ^ 115 := by norm_num
  rw [e] at hx
  have hv := value_mono h2
  rw [hx] at hv
  have he : expf (fin x) = round32 (Real.exp x) := rfl
  rw [he, h60]
  by_cases hb : (2 : ℝ) ^ 128 ≤ value (Real.exp x)
  · rw [show round32 (Real.exp x) = .pinf from if_pos hb]
    change infOf 60 = _
    norm_num [infOf]
  · have : round32 (Real.exp x) = fin (value (Real.exp x)) := by
      unfold round32
      rw [if_neg hb, if_neg]
      norm_num at *
      linarith
    rw [this]
    refine (fin_mul _ _).trans ?_
    have h3 : (2 : ℝ) ^ 128 ≤ 60 * value (Real.exp x) := by norm_num at *; linarith
    have hy := value_exact 1 128 (by norm_num) (by norm_num)
    have e : ((1 : ℤ) : ℝ) * 2 ^ (128 : ℤ) = 2 ^ 128 := by norm_num
    rw [e] at hy
    exact if_pos (hy ▸ value_mono h3)

theorem mul_nan (x : Fl) : letI := binary32; x * .nan = .nan := by cases x <;> rfl
theorem add_nan (x : Fl) : letI := binary32; x + .nan = .nan := by cases x <;> rfl

/-- Rounding keeps bounds that are themselves `float` numbers. -/
theorem round_keep {r lo hi : ℝ} (hl : round32 lo = fin lo) (hh : round32 hi = fin hi) (h0 : lo ≤ r) (h1 : r ≤ hi) : ∃ y, round32 r = fin y ∧ lo ≤ y ∧ y ≤ hi := by
  have a := round_mono lo r h0
  have b := round_mono r hi h1
  rw [hl] at a
  rw [hh] at b
  cases e : round32 r with
  | nan => rw [e] at a; exact a.elim
  | pinf => rw [e] at b; exact b.elim
  | ninf => rw [e] at a; exact a.elim
  | fin y => rw [e] at a b; exact ⟨y, rfl, a, b⟩

theorem round_nat (n : ℤ) (h : |n| ≤ 2 ^ 24) : round32 n = fin n := by
  have hr : |(n : ℝ)| ≤ 2 ^ 24 := by exact_mod_cast h
  have := round_exact n 0 h (by norm_num) (by simp only [zpow_zero, mul_one]; exact hr.trans_lt (by norm_num))
  simpa using this

theorem round_one : round32 1 = fin 1 := by have := round_nat 1 (by norm_num); norm_num at *; exact this

theorem powf_seven (x : ℝ) : letI := binary32; powf (.fin x) 7 = round32 (x ^ 7) := by
  letI := binary32
  have h4 : (7 : Fl) = fin 7 := by simp
  have h : powf (.fin x) (.fin 7) = round32 (x ^ (7 : ℝ)) := if_pos (.inr (.inr ⟨7, by norm_num⟩))
  rw [h4, h]
  congr 1
  exact_mod_cast Real.rpow_natCast x 7

/-- The mean chroma is a number. -/
theorem avg_within {c c' : Fl} (h : Within c 0 1000) (h' : Within c' 0 1000) : letI := binary32; Within ((c + c') / 2) 0 1100 := by
  letI := binary32
  haveI := binary32_fine
  refine (within_div (y := 2) (c := 2) (d := 2) ((within_add h h' le_rfl le_rfl (by norm_num) (by norm_num)).zero (by norm_num : _ ≤ (2010 : ℝ))) ⟨2, by simp, by norm_num, le_rfl, le_rfl⟩ le_rfl (by norm_num) (by norm_num)).zero (by norm_num)

/-- The share of the chroma in the seventh power lies between zero and one, also after rounding. -/
theorem g_within {c : Fl} (hc : Within c 0 1100) : letI := binary32; Within (Fl.sqrt (powf c 7 / (powf c 7 + powf 25 7))) 0 1 := by
  letI := binary32
  haveI := binary32_fine
  obtain ⟨u, rfl, u00, -, u1⟩ := hc
  have h70 : 0 ≤ u ^ 7 := by positivity
  have h7 : u ^ 7 ≤ 1100 ^ 7 := by gcongr
  have rnear : ∀ r : ℝ, 0 ≤ r → r ≤ 2 ^ 90 → ∃ y, round32 r = fin y ∧ 0 ≤ y ∧ y ≤ 2 ^ 91 := by
    intro r r0 r1
    have hx := round_exact 1 90 (by norm_num) (by norm_num) (by norm_num [abs_of_pos])
    have e : ((1 : ℤ) : ℝ) * 2 ^ (90 : ℤ) = 2 ^ 90 := by norm_num
    rw [e] at hx
    obtain ⟨y, e, y0, y1⟩ := round_keep round_zero hx r0 r1
    exact ⟨y, e, y0, y1.trans (by norm_num)⟩
  obtain ⟨p, ep, p0, p1⟩ := rnear (u ^ 7) h70 (h7.trans (by norm_num))
  obtain ⟨q, eq, q0, nq⟩ := round_pos (r := 25 ^ 7) (by norm_num) (by norm_num)
  have q1 : 1 ≤ q ∧ q ≤ 2 ^ 40 := by rw [abs_le] at nq; constructor <;> (norm_num at *; linarith)
  have hx := round_exact 1 100 (by norm_num) (by norm_num) (by norm_num [abs_of_pos])
  have e100 : ((1 : ℤ) : ℝ) * 2 ^ (100 : ℤ) = 2 ^ 100 := by norm_num
  rw [e100] at hx
  obtain ⟨s, es, s0, -⟩ := round_keep (r := p + q) (round_again ep) hx (by linarith [q1.1]) (by norm_num at *; linarith)
  obtain ⟨s', es', s0', -⟩ := round_keep (r := p + q) round_one hx (by linarith [q1.1]) (by norm_num at *; linarith)
  obtain rfl : s = s' := by rw [es] at es'; exact Fl.fin.inj es'
  have sp : 0 < s := by linarith
  obtain ⟨t, et, t0, t1⟩ := round_keep (r := p / s) round_zero round_one (div_nonneg p0 sp.le) ((div_le_one sp).mpr s0)
  obtain ⟨v, ev, v0, v1⟩ := round_keep (r := Real.sqrt t) round_zero round_one (Real.sqrt_nonneg t) (by rw [Real.sqrt_le_left (by norm_num)]; norm_num; exact t1)
  have e1 : powf (fin u) 7 = fin p := (powf_seven u).trans ep
  have e2 : powf 25 7 = fin q := by
    have h25 : (25 : Fl) = fin 25 := by simp
    rw [h25]
    exact (powf_seven 25).trans eq
  have e3 : (fin p + fin q : Fl) = fin s := (fin_add p q).trans es
  have e4 : (fin p / fin s : Fl) = fin t := (fin_div p s sp.ne').trans et
  rw [e1, e2, e3, e4]
  refine ⟨v, ?_, v0, v0, v1⟩
  simp only [Fl.sqrt, not_lt.mpr t0, if_false]
  exact ev

/-- The stretched `a` component is not smaller than the component. -/
theorem stretch {a : ℝ} {g : Fl} (ha : round32 a = fin a) (h0 : 0 ≤ a) (h1 : a ≤ 128) (hg : Within g 0 1) : letI := binary32; ∃ t, fin a + fin a / 2 * (1 - g) = fin t ∧ a ≤ t := by
  letI := binary32
  have r128 : round32 128 = fin 128 := by have := round_nat 128 (by norm_num); norm_num at *; exact this
  have r256 : round32 256 = fin 256 := by have := round_nat 256 (by norm_num); norm_num at *; exact this
  obtain ⟨g, rfl, -, g0, g1⟩ := hg
  obtain ⟨m, em, m0, m1⟩ := round_keep (r := 1 - g) round_zero round_one (by linarith) (by linarith)
  obtain ⟨k, ek, k0, k1⟩ := round_keep (r := a / 2) round_zero r128 (by linarith) (by linarith)
  obtain ⟨n, en, n0, n1⟩ := round_keep (r := k * m) round_zero r128 (by positivity) (by nlinarith)
  obtain ⟨t, et, t0, -⟩ := round_keep (r := a + n) ha r256 (by linarith) (by linarith)
  refine ⟨t, ?_, t0⟩
  have e1 : (1 - fin g : Fl) = fin m := by rw [one_def]; exact (fin_sub 1 g).trans em
  have e2 : (fin a / 2 : Fl) = fin k := by
    have h2 : (2 : Fl) = fin 2 := by simp
    rw [h2]; exact (fin_div a 2 (by norm_num)).trans ek
  rw [e1, e2]
  exact (congrArg (fin a + ·) ((fin_mul k m).trans en)).trans ((fin_add a n).trans et)

/-- A larger abscissa gives a smaller angle. -/
theorem arg_le {a b t : ℝ} (ha : 0 ≤ a) (hb : 0 ≤ b) (ht : a ≤ t) : Complex.arg ⟨t, b⟩ ≤ Complex.arg ⟨a, b⟩ := by
  rw [Complex.arg_of_re_nonneg (x := ⟨t, b⟩) (ha.trans ht), Complex.arg_of_re_nonneg (x := ⟨a, b⟩) ha]
  refine Real.arcsin_le_arcsin ?_
  simp only
  rcases hb.eq_or_lt with rfl | hb
  · simp
  have n : ∀ x : ℝ, ‖(⟨x, b⟩ : ℂ)‖ = Real.sqrt (x * x + b * b) := fun x => by
    rw [← Complex.normSq_mk, ← Complex.sq_norm, Real.sqrt_sq (norm_nonneg _)]
  rw [n, n]
  refine div_le_div_of_nonneg_left hb.le (Real.sqrt_pos.mpr (by nlinarith)) (Real.sqrt_le_sqrt (by nlinarith))

/-- The hue in whole degrees of a colour in the first quadrant is at most the angle, up to a small error. -/
theorem hue_le {a b t D : ℝ} (ha : 0 ≤ a) (hb : 0 ≤ b) (ht : a ≤ t) (hD : D = Complex.arg ⟨a, b⟩ / Real.pi * 180) : letI := binary32
    ∃ n : ℤ, Distance.hueInt (fin b) (fin t) = ok n ∧ 0 ≤ n ∧ (n : ℝ) ≤ D * 1.0001 + 0.001 ∧ n ≤ 100 := by
  letI := binary32
  haveI := binary32_fine
  have pi0 := Real.pi_gt_three
  have pi1 := Real.pi_lt_four
  have A0 : 0 ≤ Complex.arg ⟨t, b⟩ := Complex.arg_nonneg_iff.mpr hb
  have A1 : Complex.arg ⟨t, b⟩ ≤ Complex.arg ⟨a, b⟩ := arg_le ha hb ht
  have A2 : Complex.arg ⟨a, b⟩ ≤ Real.pi / 2 := (abs_le.mp ((Complex.abs_arg_le_pi_div_two_iff (z := ⟨a, b⟩)).mpr ha)).2
  generalize Complex.arg ⟨a, b⟩ = B at *
  have ear : atan2f (fin b) (fin t) = rnd (Complex.arg ⟨t, b⟩) := rfl
  generalize Complex.arg ⟨t, b⟩ = T at *
  obtain ⟨r, er, r0, nr⟩ := round_pos A0 ((A1.trans A2).trans (by norm_num; linarith))
  obtain ⟨p, ep, p0, np⟩ := round_pos (r := Real.pi) (by linarith) (by norm_num; linarith)
  rw [abs_le] at np nr
  have hp : Real.pi * (1 - 1 / 10 ^ 5) ≤ p := by norm_num at *; linarith
  have hp1 : p ≤ 5 := by norm_num at *; linarith
  have pp : 0 < p := by norm_num at *; linarith
  have hk : 180 / p ≤ 180 / Real.pi * (1 + 2 / 10 ^ 5) := by
    rw [div_le_iff₀ pp]
    have : 180 / Real.pi * (1 + 2 / 10 ^ 5) * (Real.pi * (1 - 1 / 10 ^ 5)) ≤ 180 / Real.pi * (1 + 2 / 10 ^ 5) * p := by gcongr
    refine le_trans ?_ this
    have e : 180 / Real.pi * (1 + 2 / 10 ^ 5) * (Real.pi * (1 - 1 / 10 ^ 5)) = 180 * ((1 + 2 / 10 ^ 5) * (1 - 1 / 10 ^ 5)) := by field_simp
    rw [e]; norm_num
  have hK : 180 / Real.pi ≤ 60 := by rw [div_le_iff₀ (by linarith)]; linarith
  have hK0 : 0 < 180 / Real.pi := by positivity
  have eD : D = B * (180 / Real.pi) := by rw [hD]; ring
  have D1 : D ≤ 90 := by rw [hD, div_mul_eq_mul_div, div_le_iff₀ (by linarith)]; linarith
  have B1 : B ≤ 2 := by linarith
  generalize 180 / Real.pi = K at *
  obtain ⟨k, ek, k0, nk⟩ := round_pos (r := 180 / p) (by positivity) (hk.trans (by norm_num; linarith))
  rw [abs_le] at nk
  have k1 : k ≤ K * (1 + 3 / 10 ^ 5) + 1 / 10 ^ 9 := by norm_num at *; linarith
  have r1 : r ≤ B * (1 + 1 / 10 ^ 5) + 1 / 10 ^ 9 := by norm_num at *; linarith
  have m1 : r * k ≤ D * (1 + 5 / 10 ^ 5) + 1 / 10 ^ 4 := by
    have : r * k ≤ (B * (1 + 1 / 10 ^ 5) + 1 / 10 ^ 9) * (K * (1 + 3 / 10 ^ 5) + 1 / 10 ^ 9) := mul_le_mul r1 k1 k0 (by have := A0.trans A1; positivity)
    refine this.trans ?_
    have e : (B * (1 + 1 / 10 ^ 5) + 1 / 10 ^ 9) * (K * (1 + 3 / 10 ^ 5) + 1 / 10 ^ 9) =
      B * K * ((1 + 1 / 10 ^ 5) * (1 + 3 / 10 ^ 5)) + B * (1 + 1 / 10 ^ 5) * (1 / 10 ^ 9) + 1 / 10 ^ 9 * (K * (1 + 3 / 10 ^ 5)) + 1 / 10 ^ 9 * (1 / 10 ^ 9) := by ring
    have BK : 0 ≤ B * K := mul_nonneg (A0.trans A1) hK0.le
    rw [e, eD]
    norm_num at *
    linarith
  have m0 : 0 ≤ r * k := mul_nonneg r0 k0
  have D0 : 0 ≤ D := by rw [eD]; exact mul_nonneg (A0.trans A1) hK0.le
  obtain ⟨d, ed, d0, nd⟩ := round_pos m0 (m1.trans (by norm_num at *; linarith))
  rw [abs_le] at nd
  have d1 : d ≤ D * 1.0001 + 0.001 := by norm_num at *; linarith
  have d2 : d < 100 := by norm_num at *; linarith
  have fl0 : 0 ≤ ⌊d⌋ := Int.floor_nonneg.mpr d0
  have fl1 : ⌊d⌋ < 100 := by rw [Int.floor_lt]; exact_mod_cast d2
  have et : Distance.toDeg (atan2f (fin b) (fin t)) = fin d := by
    have e1 : atan2f (fin b) (fin t) = fin r := ear.trans er
    have h180 : (180 : Fl) = fin 180 := by simp
    have e2 : (180 / lit Real.pi : Fl) = fin k := by
      rw [show lit Real.pi = fin p from ep, h180]
      exact (fin_div 180 p pp.ne').trans ek
    rw [Distance.toDeg, e1, e2]
    exact (fin_mul r k).trans ed
  have tr : truncR d = ⌊d⌋ := if_pos d0
  refine ⟨⌊d⌋, ?_, fl0, (Int.floor_le d).trans d1, by omega⟩
  unfold Distance.hueInt
  rw [et]
  have ti : Distance.toInt (fin d) = ok ⌊d⌋ := by
    simp only [Distance.toInt, tr]
    exact if_pos ⟨by omega, by omega⟩
  rw [ti]
  simp only [ok_bind]
  have : (⌊d⌋).tmod 360 = ⌊d⌋ := Int.tmod_eq_of_lt fl0 (by omega)
  rw [this, if_neg (by omega)]

/-- The rotation term is NaN if the sum of the hues is small. -/
theorem rotation {h h' : ℤ} (h0 : 0 ≤ h) (h0' : 0 ≤ h') (hs : h + h' ≤ 90) (g : Fl) : letI := binary32
    (-2) * g * sinf (Distance.toRad (60 * expf (powf (-(Distance.meanHue h h' - 275) / 25) 2))) = .nan := by
  letI := binary32
  haveI := binary32_fine
  have hd : ¬ 180 < |h - h'| := by rw [lt_abs]; omega
  have e0 : Distance.ofInt (h + h') = fin ((h + h' : ℤ) : ℝ) := round_nat _ (by rw [abs_le]; omega)
  have hn : 0 ≤ h + h' := by omega
  have hnr : (0 : ℝ) ≤ ((h + h' : ℤ) : ℝ) := by exact_mod_cast hn
  have hsr : ((h + h' : ℤ) : ℝ) ≤ 90 := by exact_mod_cast hs
  generalize ((h + h' : ℤ) : ℝ) = s at *
  obtain ⟨H, eH, H0, nH⟩ := round_pos (r := s / 2) (by linarith) (by norm_num; linarith)
  rw [abs_le] at nH
  have H1 : H ≤ 45.0001 := by norm_num at *; linarith
  obtain ⟨x, ex, nx⟩ := round_any (r := H - 275) (by rw [abs_le]; constructor <;> (norm_num at *; linarith))
  rw [abs_of_nonpos (by norm_num at *; linarith : H - 275 ≤ 0), abs_le] at nx
  have x1 : 229.999 ≤ -x := by norm_num at *; linarith
  have x2 : -x ≤ 276 := by norm_num at *; linarith
  obtain ⟨y, ey, y0, ny⟩ := round_pos (r := -x / 25) (by norm_num at *; linarith) (by norm_num at *; linarith)
  rw [abs_le] at ny
  have y1 : 9.19995 ≤ y := by norm_num at *; linarith
  have y2 : y ≤ 12 := by norm_num at *; linarith
  have y3 : 84.639 ≤ y ^ 2 := by norm_num at *; nlinarith
  have y4 : y ^ 2 ≤ 144 := by nlinarith
  obtain ⟨z, ez, z0, nz⟩ := round_pos (r := y ^ 2) (by positivity) (y4.trans (by norm_num))
  rw [abs_le] at nz
  have z1 : 84.635 ≤ z := by norm_num at *; linarith
  have h2 : (2 : Fl) = fin 2 := by simp
  have h25 : (25 : Fl) = fin 25 := by simp
  have h275 : (275 : Fl) = fin 275 := by simp
  have h60 : (60 : Fl) = fin 60 := by simp
  have h180 : (180 : Fl) = fin 180 := by simp
  have e1 : Distance.meanHue h h' = fin H := by
    rw [Distance.meanHue, if_neg hd, e0, h2]
    exact (fin_div s 2 (by norm_num)).trans eH
  have e2 : (fin H - 275 : Fl) = fin x := by rw [h275]; exact (fin_sub H 275).trans ex
  have e3 : (-(fin x) / 25 : Fl) = fin y := by rw [h25, neg_fin]; exact (fin_div (-x) 25 (by norm_num)).trans ey
  have e4 : powf (fin y) 2 = fin z := by rw [h2, powf_two]; exact ez
  have e5 := exp_over z1
  obtain ⟨p, ep, p0, np⟩ := round_pos (r := Real.pi) (by linarith [Real.pi_gt_three]) (by norm_num; linarith [Real.pi_lt_four])
  rw [abs_le] at np
  have p3 : 2 ≤ p := by have := Real.pi_gt_three; norm_num at *; linarith
  obtain ⟨k, ek, k0, nk⟩ := round_pos (r := p / 180) (by positivity) (by have := Real.pi_lt_four; norm_num at *; linarith)
  rw [abs_le] at nk
  have k1 : 0 < k := by norm_num at *; linarith
  have e6 : (lit Real.pi / 180 : Fl) = fin k := by
    rw [show lit Real.pi = fin p from ep, h180]
    exact (fin_div p 180 (by norm_num)).trans ek
  have e8 : (Fl.pinf * fin k : Fl) = .pinf := by
    change infOf k = _
    simp [infOf, k1]
  rw [e1, e2, e3, e4, e5, Distance.toRad, e6, e8]
  exact mul_nan _

/-- The formula gives NaN if the sum of the hues is small. -/
theorem cie00_nan {p q : Color} {l a b l' a' b' : ℝ} (kL k1 k2 kC kH : Fl) (hp : p.comps = [fin l, fin a, fin b]) (hq : q.comps = [fin l', fin a', fin b'])
    (ea : round32 a = fin a) (ea' : round32 a' = fin a') (ha : 0 ≤ a ∧ a ≤ 128) (hb : 0 ≤ b ∧ b ≤ 128) (ha' : 0 ≤ a' ∧ a' ≤ 128) (hb' : 0 ≤ b' ∧ b' ≤ 128)
    (hs : Complex.arg ⟨a, b⟩ / Real.pi * 180 + Complex.arg ⟨a', b'⟩ / Real.pi * 180 ≤ 90) : letI := binary32
    Distance.cie00 kL k1 k2 kC kH p q = ok .nan := by
  letI := binary32
  haveI := binary32_fine
  haveI := binary32_square
  have ch : ∀ x y : ℝ, 0 ≤ x ∧ x ≤ 128 → 0 ≤ y ∧ y ≤ 128 → Within (Distance.chroma (fin x) (fin y)) 0 1000 := by
    intro x y hx hy
    obtain ⟨e1, s1, u1⟩ := round_pos (r := x ^ 2) (by positivity) (by nlinarith)
    obtain ⟨e2, s2, u2⟩ := round_pos (r := y ^ 2) (by positivity) (by nlinarith)
    have h2 : (2 : Fl) = fin 2 := by simp
    have b1 : e1 ≤ 20000 := by have := (abs_le.mp u1.2).2; have : x ^ 2 ≤ 128 ^ 2 := by nlinarith
                               norm_num at *; linarith
    have b2 : e2 ≤ 20000 := by have := (abs_le.mp u2.2).2; have : y ^ 2 ≤ 128 ^ 2 := by nlinarith
                               norm_num at *; linarith
    have := within_sqrt (within_add (x := fin e1) (y := fin e2) (a := 0) (b := 20000) (c := 0) (d := 20000) ⟨e1, rfl, u1.1, u1.1, b1⟩ ⟨e2, rfl, u2.1, u2.1, b2⟩ le_rfl le_rfl (by norm_num)
      (by norm_num) |>.zero (by norm_num : _ ≤ (40401 : ℝ))) (by norm_num)
    rw [show (40401 : ℝ) = 201 ^ 2 by norm_num, Real.sqrt_sq (by norm_num)] at this
    rw [Distance.chroma, h2, powf_two, powf_two, show round32 (x ^ 2) = fin e1 from s1, show round32 (y ^ 2) = fin e2 from s2]
    exact this.weaken le_rfl (by norm_num)
  have hg := g_within (avg_within (ch a b ha hb) (ch a' b' ha' hb'))
  obtain ⟨t, et, t0⟩ := stretch ea ha.1 ha.2 hg
  obtain ⟨t', et', t0'⟩ := stretch ea' ha'.1 ha'.2 hg
  obtain ⟨n, en, n0, n1, -⟩ := hue_le (D := _) ha.1 hb.1 t0 rfl
  obtain ⟨n', en', n0', n1', -⟩ := hue_le (D := _) ha'.1 hb'.1 t0' rfl
  have hn : n + n' ≤ 90 := by
    have : ((n + n' : ℤ) : ℝ) < ((91 : ℤ) : ℝ) := by push_cast; norm_num at *; linarith
    have := Int.cast_lt.mp this
    omega
  have rot := rotation n0 n0' hn
  have nm : ∀ x : Fl, (Fl.nan * x : Fl) = .nan := fun x => by cases x <;> rfl
  obtain ⟨cls, ct, comps, al, mx, mn, sp⟩ := p
  obtain ⟨cls', ct', comps', al', mx', mn', sp'⟩ := q
  simp only at hp hq
  subst hp hq
  simp only [Distance.cie00, Conv.get3_0, Conv.get3_1, Conv.get3_2, ok_bind, et, et', en, en', rot, nm, add_nan]
  rfl

end Cie00Near

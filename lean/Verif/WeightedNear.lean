import Verif.SquareNear
import Verif.NearLemmas
import Verif.DistanceLemmas

/-! Helper lemmas: the weighted Euclidean distance in an arithmetic that rounds. -/

open Outcome Fl Prog

namespace Fl
variable [FloatModel]

theorem RelErr.mul [FineError] {x y : Fl} {A B k l τ : ℝ} (hx : RelErr x A k 0) (hy : RelErr y B l τ) (hA : 0 ≤ A) (hA1 : A ≤ 4) (hB : 0 ≤ B) (hB1 : B ≤ 2 ^ 30) (hk0 : 0 ≤ k) (hk : k ≤ 100)
    (hl0 : 0 ≤ l) (hl : l ≤ 100) (ht0 : 0 ≤ τ) (ht : τ ≤ 1 / 16) : RelErr (x * y) (A * B) (k + l + 1.2) (16 * τ + 1 / 2 ^ 100) := by
  obtain ⟨p, rfl, p0, hp⟩ := hx
  obtain ⟨q, rfl, q0, hq⟩ := hy
  rw [fin_mul]
  have hAB : 0 ≤ A * B := by positivity
  have e : |p * q - A * B| ≤ A * B * (k + l + 0.1) / 2 ^ 23 + 8 * τ := by
    have h1 : p * q - A * B = (p - A) * q + A * (q - B) := by ring
    have hq1 : q ≤ B + (B * l / 2 ^ 23 + τ) := by have := le_abs_self (q - B); linarith
    rw [add_zero] at hp
    have h2 : |(p - A) * q| ≤ (A * k / 2 ^ 23) * (B + (B * l / 2 ^ 23 + τ)) := by
      rw [abs_mul, abs_of_nonneg q0]
      exact mul_le_mul hp hq1 q0 (by positivity)
    have h3 : |A * (q - B)| ≤ A * (B * l / 2 ^ 23 + τ) := by
      rw [abs_mul, abs_of_nonneg hA]; gcongr
    rw [h1]
    refine (abs_add_le _ _).trans ((add_le_add h2 h3).trans ?_)
    have h4 : (A * k / 2 ^ 23) * (B + (B * l / 2 ^ 23 + τ)) + A * (B * l / 2 ^ 23 + τ) = A * B * (k + l + k * l / 2 ^ 23) / 2 ^ 23 + A * (k / 2 ^ 23 + 1) * τ := by ring
    rw [h4]
    have h5 : k * l / 2 ^ 23 ≤ 0.1 := by
      have : k * l ≤ 100 * 100 := by gcongr
      norm_num at *; linarith
    have h6 : A * (k / 2 ^ 23 + 1) ≤ 8 := by
      calc A * (k / 2 ^ 23 + 1) ≤ 4 * (100 / 2 ^ 23 + 1) := by gcongr
        _ ≤ 8 := by norm_num
    gcongr
  have := RelErr.round (by positivity) e hAB (by nlinarith) (by positivity) (by norm_num at *; linarith) (by positivity) (by linarith)
  exact this.weaken hAB (by norm_num at *; linarith) (by linarith)

/-- The root of a sum with a larger error. -/
theorem RelErr.root [FineError] {x : Fl} {A k τ : ℝ} (h : RelErr x A k τ) (hA : 0 ≤ A) (hA1 : A ≤ 2 ^ 40) (hk : k ≤ 15) (ht : τ ≤ 1 / 2 ^ 60) :
    RelErr (Fl.sqrt x) (Real.sqrt A) 9.2 (1 / 2 ^ 26) := by
  obtain ⟨p, rfl, p0, hp⟩ := h
  set d := Real.sqrt A with hd
  have d0 : 0 ≤ d := Real.sqrt_nonneg A
  have dA : d ^ 2 = A := Real.sq_sqrt hA
  have d1 : d ≤ 2 ^ 20 := by
    rw [hd, Real.sqrt_le_left (by norm_num)]
    exact hA1.trans (by norm_num)
  have hAk : A * k ≤ A * 15 := by gcongr
  rw [abs_le] at hp
  have up : Real.sqrt p ≤ d * (1 + 7.8 / 2 ^ 23) + 1 / 2 ^ 29 := by
    rw [Real.sqrt_le_left (by positivity)]
    have : (d * (1 + 7.8 / 2 ^ 23) + 1 / 2 ^ 29) ^ 2 = A * (1 + 7.8 / 2 ^ 23) ^ 2 + d * (2 * (1 + 7.8 / 2 ^ 23) / 2 ^ 29) + 1 / 2 ^ 58 := by rw [← dA]; ring
    rw [this]
    norm_num at *
    linarith
  have lo : d * (1 - 7.8 / 2 ^ 23) ≤ Real.sqrt p + 1 / 2 ^ 29 := by
    have s0 := Real.sqrt_nonneg p
    have sp : Real.sqrt p ^ 2 = p := Real.sq_sqrt p0
    refine abs_le_of_sq_le_sq' ?_ (by positivity) |>.2
    have e1 : (d * (1 - 7.8 / 2 ^ 23)) ^ 2 = A * (1 - 7.8 / 2 ^ 23) ^ 2 := by rw [mul_pow, dA]
    have e2 : (Real.sqrt p + 1 / 2 ^ 29) ^ 2 = p + Real.sqrt p * (2 / 2 ^ 29) + 1 / 2 ^ 58 := by rw [add_sq, sp]; ring
    rw [e1, e2]
    norm_num at *
    have s0 := Real.sqrt_nonneg p
    linarith
  have hs : Fl.sqrt (fin p) = rnd (Real.sqrt p) := by simp [Fl.sqrt, not_lt.mpr p0]
  rw [hs]
  have := RelErr.round (k := 8) (τ := 1 / 2 ^ 28) (p := Real.sqrt p) (A := d) (Real.sqrt_nonneg p) (by
    rw [abs_le]; constructor <;> (norm_num at *; linarith)) d0 (d1.trans (by norm_num)) (by norm_num) (by norm_num) (by positivity) (by norm_num)
  exact this.weaken d0 (by norm_num) (by norm_num)

end Fl

namespace Distance
variable [FloatModel] [FineError]

/-- A scaled difference. -/
theorem scaled_diff {x x' : ℝ} (hx : 0 ≤ x ∧ x ≤ 1) (hx' : 0 ≤ x' ∧ x' ≤ 1) : ∃ u, (fin x - fin x') * 255 = fin u ∧ |u - (255 * x - 255 * x')| ≤ |255 * x - 255 * x'| * 2.1 / 2 ^ 23 + 1 / 2 ^ 90 := by
  have h1 : |x - x'| ≤ 1 := by rw [abs_le]; constructor <;> linarith [hx.1, hx.2, hx'.1, hx'.2]
  obtain ⟨p, ep, np⟩ := FineError.rnd_near (x - x') (h1.trans (by norm_num))
  have p1 : |p| ≤ |x - x'| + (|x - x'| / 2 ^ 23 + 1 / 2 ^ 100) := by
    have := abs_add_le (p - (x - x')) (x - x')
    rw [sub_add_cancel] at this; linarith
  have a0 := abs_nonneg (x - x')
  have s : |p * 255| = |p| * 255 := by rw [abs_mul, abs_of_pos (by norm_num : (0 : ℝ) < 255)]
  obtain ⟨u, eu, nu⟩ := FineError.rnd_near (p * 255) (by rw [s]; norm_num at *; linarith)
  refine ⟨u, by rw [fin_sub, ep, lit_def, fin_mul, eu], ?_⟩
  have t : 255 * x - 255 * x' = (x - x') * 255 := by ring
  have s' : |(x - x') * 255| = |x - x'| * 255 := by rw [abs_mul, abs_of_pos (by norm_num : (0 : ℝ) < 255)]
  rw [t, s']
  have q := abs_sub_le u (p * 255) ((x - x') * 255)
  have q2 : |p * 255 - (x - x') * 255| = |p - (x - x')| * 255 := by rw [← sub_mul, abs_mul, abs_of_pos (by norm_num : (0 : ℝ) < 255)]
  rw [q2] at q
  rw [s] at nu
  generalize |x - x'| = X at *
  norm_num at np p1 nu ⊢
  linarith

theorem scaled_square [SquareNear] {x x' : ℝ} (hx : 0 ≤ x ∧ x ≤ 1) (hx' : 0 ≤ x' ∧ x' ≤ 1) : RelErr (powf ((fin x - fin x') * 255) 2) ((255 * x - 255 * x') ^ 2) 6.5 (1 / 2 ^ 75) := by
  obtain ⟨u, e, n⟩ := scaled_diff hx hx'
  set D := 255 * x - 255 * x' with hD
  have hd : |D| ≤ 255 := by rw [hD, abs_le]; constructor <;> linarith [hx.1, hx.2, hx'.1, hx'.2]
  have sq : D ^ 2 = |D| ^ 2 := (sq_abs _).symm
  set a := |D| with ha
  have a0 : 0 ≤ a := abs_nonneg _
  have hu : |u| ≤ 2 ^ 20 := by
    have := abs_add_le (u - D) D
    rw [sub_add_cancel] at this
    norm_num at *
    linarith
  obtain ⟨r, er, r0, nr⟩ := SquareNear.square_near u hu
  have h2 : (2 : Fl) = fin 2 := by simp
  refine ⟨r, by rw [e, h2, er], r0, ?_⟩
  have d1 : |u ^ 2 - D ^ 2| ≤ (a * 2.1 / 2 ^ 23 + 1 / 2 ^ 90) * (2 * a + (a * 2.1 / 2 ^ 23 + 1 / 2 ^ 90)) := by
    rw [show u ^ 2 - D ^ 2 = (u - D) * (2 * D + (u - D)) by ring, abs_mul]
    refine mul_le_mul n ((abs_add_le _ _).trans (add_le_add (le_of_eq ?_) n)) (abs_nonneg _) (by positivity)
    rw [abs_mul, abs_two]
  have d2 : (a * 2.1 / 2 ^ 23 + 1 / 2 ^ 90) * (2 * a + (a * 2.1 / 2 ^ 23 + 1 / 2 ^ 90)) = a ^ 2 * (4.2 / 2 ^ 23 + 4.41 / 2 ^ 46) + a * (2 / 2 ^ 90 + 4.2 / 2 ^ 113) + 1 / 2 ^ 180 := by ring
  rw [d2] at d1
  have d3 := abs_sub_le r (u ^ 2) (D ^ 2)
  have d4 : u ^ 2 ≤ D ^ 2 + |u ^ 2 - D ^ 2| := by have := le_abs_self (u ^ 2 - D ^ 2); linarith
  rw [sq] at *
  have a2 : 0 ≤ a ^ 2 := sq_nonneg a
  clear_value a D
  norm_num at *
  linarith

/-- The mean of the red components. -/
theorem mean_near {x x' : ℝ} (hx : 0 ≤ x ∧ x ≤ 1) (hx' : 0 ≤ x' ∧ x' ≤ 1) : ∃ m, (fin x + fin x') / 2 * 255 = fin m ∧ |m - (255 * x + 255 * x') / 2| ≤ 255 * 3.2 / 2 ^ 23 := by
  have h1 : |x + x'| ≤ 2 := by rw [abs_le]; constructor <;> linarith [hx.1, hx.2, hx'.1, hx'.2]
  obtain ⟨p, ep, np⟩ := FineError.rnd_near (x + x') (h1.trans (by norm_num))
  have p1 : |p| ≤ 2.001 := by
    have := abs_add_le (p - (x + x')) (x + x')
    rw [sub_add_cancel] at this; norm_num at *; linarith
  have s : |p / 2| = |p| / 2 := by rw [abs_div, abs_two]
  obtain ⟨q, eq, nq⟩ := FineError.rnd_near (p / 2) (by rw [s]; norm_num at *; linarith)
  rw [s] at nq
  have q1 : |q - (x + x') / 2| ≤ 2.01 / 2 ^ 23 := by
    have t := abs_sub_le q (p / 2) ((x + x') / 2)
    have : |p / 2 - (x + x') / 2| = |p - (x + x')| / 2 := by rw [← sub_div, abs_div, abs_two]
    rw [this] at t
    norm_num at *; linarith
  have q2 : |q| ≤ 1.01 := by
    have := abs_add_le (q - (x + x') / 2) ((x + x') / 2)
    have h2 : |(x + x') / 2| = |x + x'| / 2 := by rw [abs_div, abs_two]
    rw [sub_add_cancel, h2] at this
    norm_num at *; linarith
  have s' : |q * 255| = |q| * 255 := by rw [abs_mul, abs_of_pos (by norm_num : (0 : ℝ) < 255)]
  obtain ⟨m, em, nm⟩ := FineError.rnd_near (q * 255) (by rw [s']; norm_num at *; linarith)
  rw [s'] at nm
  refine ⟨m, by rw [fin_add, ep, lit_def, fin_div _ _ two_ne_zero, eq, lit_def, fin_mul, em], ?_⟩
  have t := abs_sub_le m (q * 255) ((255 * x + 255 * x') / 2)
  have : |q * 255 - (255 * x + 255 * x') / 2| = |q - (x + x') / 2| * 255 := by
    rw [show q * 255 - (255 * x + 255 * x') / 2 = (q - (x + x') / 2) * 255 by ring, abs_mul, abs_of_pos (by norm_num : (0 : ℝ) < 255)]
  rw [this] at t
  norm_num at *; linarith

/-- A weight: two and a small number. -/
theorem weight_near {z r : ℝ} (hr : 0 ≤ r ∧ r ≤ 255) (h : |z - r| ≤ 255 * 4.3 / 2 ^ 23) : RelErr (2 + fin z / 256) (2 + r / 256) 4.5 0 := by
  have hz : |z| ≤ 256 := by
    have := abs_add_le (z - r) r
    rw [sub_add_cancel, abs_of_nonneg hr.1] at this
    norm_num at *; linarith [hr.2]
  have s : |z / 256| = |z| / 256 := by rw [abs_div, abs_of_pos (by norm_num : (0 : ℝ) < 256)]
  obtain ⟨p, ep, np⟩ := FineError.rnd_near (z / 256) (by rw [s]; norm_num at *; linarith)
  rw [s] at np
  have p1 : |p - r / 256| ≤ 5.35 / 2 ^ 23 := by
    have t := abs_sub_le p (z / 256) (r / 256)
    have : |z / 256 - r / 256| = |z - r| / 256 := by rw [← sub_div, abs_div, abs_of_pos (by norm_num : (0 : ℝ) < 256)]
    rw [this] at t
    norm_num at *; linarith
  rw [lit_def, lit_def, fin_div _ _ (by norm_num), ep, fin_add]
  have pl := abs_le.mp p1
  have pos : 0 ≤ 2 + p := by norm_num at *; linarith [hr.1]
  have pu : |2 + p| ≤ 3 + 5.35 / 2 ^ 23 := by rw [abs_of_nonneg pos]; linarith [hr.2]
  obtain ⟨w, ew, nw⟩ := FineError.rnd_near (2 + p) (pu.trans (by norm_num))
  refine ⟨w, ew, rnd_nonneg_fin pos ew, ?_⟩
  have t := abs_sub_le w (2 + p) (2 + r / 256)
  rw [show 2 + p - (2 + r / 256) = p - r / 256 by ring] at t
  norm_num at *
  linarith [hr.1]

theorem weights_near {x x' : ℝ} (hx : 0 ≤ x ∧ x ≤ 1) (hx' : 0 ≤ x' ∧ x' ≤ 1) : RelErr (2 + (fin x + fin x') / 2 * 255 / 256) (2 + (255 * x + 255 * x') / 2 / 256) 4.5 0 ∧
    RelErr (2 + (255 - (fin x + fin x') / 2 * 255) / 256) (2 + (255 - (255 * x + 255 * x') / 2) / 256) 4.5 0 := by
  obtain ⟨m, em, nm⟩ := mean_near hx hx'
  set r := (255 * x + 255 * x') / 2 with hr
  have r01 : 0 ≤ r ∧ r ≤ 255 := by rw [hr]; constructor <;> linarith [hx.1, hx.2, hx'.1, hx'.2]
  have w1 := weight_near r01 (nm.trans (by norm_num))
  obtain ⟨c, ec, nc⟩ := FineError.rnd_near (255 - m) (by
    have := abs_le.mp nm
    rw [abs_le]; norm_num at *; constructor <;> linarith [r01.1, r01.2])
  have w2 := weight_near (z := c) (r := 255 - r) ⟨by linarith [r01.2], by linarith [r01.1]⟩ (by
    have t := abs_sub_le c (255 - m) (255 - r)
    rw [show 255 - m - (255 - r) = -(m - r) by ring, abs_neg] at t
    have u : |255 - m| ≤ 255.01 := by
      have := abs_le.mp nm
      rw [abs_le]; norm_num at *; constructor <;> linarith [r01.1, r01.2]
    norm_num at *; linarith)
  have ew : (255 : Fl) - fin m = fin c := by rw [lit_def, fin_sub, ec]
  rw [em, ew]
  exact ⟨w1, w2⟩

/-- The weighted distance of two RGB colours with components from 0 to 1. -/
theorem weighted_near [SquareNear] {a b : Color} {x y z x' y' z' : ℝ} (ha : a.comps = [fin x, fin y, fin z]) (hb : b.comps = [fin x', fin y', fin z']) (hx : 0 ≤ x ∧ x ≤ 1) (hy : 0 ≤ y ∧ y ≤ 1)
    (hz : 0 ≤ z ∧ z ≤ 1) (hx' : 0 ≤ x' ∧ x' ≤ 1) (hy' : 0 ≤ y' ∧ y' ≤ 1) (hz' : 0 ≤ z' ∧ z' ≤ 1) :
    ∃ d : ℝ, weighted a b = ok (fin d) ∧ 0 ≤ d ∧
      |d - Real.sqrt ((2 + (255 * x + 255 * x') / 2 / 256) * (255 * x - 255 * x') ^ 2 + 4 * (255 * y - 255 * y') ^ 2 + (2 + (255 - (255 * x + 255 * x') / 2) / 256) * (255 * z - 255 * z') ^ 2) / 255| ≤
        Real.sqrt ((2 + (255 * x + 255 * x') / 2 / 256) * (255 * x - 255 * x') ^ 2 + 4 * (255 * y - 255 * y') ^ 2 + (2 + (255 - (255 * x + 255 * x') / 2) / 256) * (255 * z - 255 * z') ^ 2) / 255 *
          (13 / 10 ^ 7) + 1 / 10 ^ 9 := by
  obtain ⟨w1, w2⟩ := weights_near hx hx'
  set r := (255 * x + 255 * x') / 2 with hr
  have r01 : 0 ≤ r ∧ r ≤ 255 := by rw [hr]; constructor <;> linarith [hx.1, hx.2, hx'.1, hx'.2]
  have four : RelErr (4 : Fl) 4 4.5 0 := ⟨4, by simp, by norm_num, by norm_num⟩
  have big : ∀ u v : ℝ, 0 ≤ u ∧ u ≤ 1 → 0 ≤ v ∧ v ≤ 1 → (255 * u - 255 * v) ^ 2 ≤ 65025 := by
    rintro u v ⟨u0, u1⟩ ⟨v0, v1⟩
    rw [show (65025 : ℝ) = 255 ^ 2 by norm_num]
    refine sq_le_sq' ?_ ?_ <;> linarith
  have b1 := big x x' hx hx'
  have b2 := big y y' hy hy'
  have b3 := big z z' hz hz'
  have n1 := sq_nonneg (255 * x - 255 * x')
  have n2 := sq_nonneg (255 * y - 255 * y')
  have n3 := sq_nonneg (255 * z - 255 * z')
  have A1 : 0 ≤ 2 + r / 256 ∧ 2 + r / 256 ≤ 4 := by constructor <;> linarith [r01.1, r01.2]
  have A2 : 0 ≤ 2 + (255 - r) / 256 ∧ 2 + (255 - r) / 256 ≤ 4 := by constructor <;> linarith [r01.1, r01.2]
  have p1 := w1.mul (scaled_square hx hx') A1.1 A1.2 n1 (b1.trans (by norm_num)) (by norm_num) (by norm_num) (by norm_num) (by norm_num) (by positivity) (by norm_num)
  have p2 := four.mul (scaled_square hy hy') (by norm_num) le_rfl n2 (b2.trans (by norm_num)) (by norm_num) (by norm_num) (by norm_num) (by norm_num) (by positivity) (by norm_num)
  have p3 := w2.mul (scaled_square hz hz') A2.1 A2.2 n3 (b3.trans (by norm_num)) (by norm_num) (by norm_num) (by norm_num) (by norm_num) (by positivity) (by norm_num)
  set P := (2 + r / 256) * (255 * x - 255 * x') ^ 2 with hP
  set Q := 4 * (255 * y - 255 * y') ^ 2 with hQ
  set S := (2 + (255 - r) / 256) * (255 * z - 255 * z') ^ 2 with hS
  have P0 : 0 ≤ P := mul_nonneg A1.1 n1
  have Q0 : 0 ≤ Q := by positivity
  have S0 : 0 ≤ S := mul_nonneg A2.1 n3
  have P1 : P ≤ 4 * 65025 := mul_le_mul A1.2 b1 n1 (by norm_num)
  have Q1 : Q ≤ 4 * 65025 := by rw [hQ]; gcongr
  have S1 : S ≤ 4 * 65025 := mul_le_mul A2.2 b3 n3 (by norm_num)
  have s1 := p1.add p2 P0 Q0 (by norm_num; linarith) (by norm_num) (by norm_num) (by positivity) (by positivity) (by norm_num)
  have s2 := s1.add (p3.weaken S0 (by norm_num) le_rfl) (by linarith) S0 (by norm_num; linarith) (by norm_num) (by norm_num) (by positivity) (by positivity) (by norm_num)
  have T0 : 0 ≤ P + Q + S := by linarith
  obtain ⟨d, ed, d0, nd⟩ := s2.root T0 (by norm_num; linarith) (by norm_num) (by norm_num)
  set D := Real.sqrt (P + Q + S) with hD
  have D0 : 0 ≤ D := Real.sqrt_nonneg _
  have D1 : D ≤ 1000 := by
    rw [hD, Real.sqrt_le_left (by norm_num)]; linarith
  have dl := abs_le.mp nd
  have s : |d / 255| = d / 255 := abs_of_nonneg (by positivity)
  obtain ⟨f, ef, nf⟩ := FineError.rnd_near (d / 255) (by rw [s]; norm_num at *; linarith)
  rw [s] at nf
  refine ⟨f, ?_, rnd_nonneg_fin (by positivity) ef, ?_⟩
  · obtain ⟨e0, e1, e2⟩ := get_comps ha
    obtain ⟨f0, f1, f2⟩ := get_comps hb
    simp only [weighted, e0, e1, e2, f0, f1, f2, ok_bind]
    rw [ed, lit_def, fin_div _ _ (by norm_num), ef]
  · have t := abs_sub_le f (d / 255) (D / 255)
    have : |d / 255 - D / 255| = |d - D| / 255 := by rw [← sub_div, abs_div, abs_of_pos (by norm_num : (0 : ℝ) < 255)]
    rw [this] at t
    clear_value D P Q S
    norm_num at *
    linarith

end Distance

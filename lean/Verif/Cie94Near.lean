import Verif.SquareNear
import Verif.Nan

/-!
# The CIE94 formula in an arithmetic that rounds

The hue difference is the root of a difference, which rounding may make negative; then the result is NaN.  In all other cases the result is close to the formula.
-/

open Outcome Fl Prog

namespace Fl
variable [FloatModel] [FineError]

/-- Rounding and the square. -/
theorem sq_rnd {r : ℝ} (hr : |r| ≤ 2 ^ 20) : ∃ y, rnd r = fin y ∧ |y| ≤ 2 ^ 21 ∧ |y ^ 2 - r ^ 2| ≤ r ^ 2 * (2.1 / 2 ^ 23) + 1 / 2 ^ 78 := by
  obtain ⟨y, e, n⟩ := FineError.rnd_near r (hr.trans (by norm_num))
  set a := |r| with ha
  have a0 : 0 ≤ a := abs_nonneg _
  have sq : r ^ 2 = a ^ 2 := (sq_abs _).symm
  refine ⟨y, e, ?_, ?_⟩
  · have := abs_add_le (y - r) r
    rw [sub_add_cancel] at this
    norm_num at *
    linarith
  · have d1 : |y ^ 2 - r ^ 2| ≤ (a / 2 ^ 23 + 1 / 2 ^ 100) * (2 * a + (a / 2 ^ 23 + 1 / 2 ^ 100)) := by
      rw [show y ^ 2 - r ^ 2 = (y - r) * (2 * r + (y - r)) by ring, abs_mul]
      refine mul_le_mul n ((abs_add_le _ _).trans (add_le_add (le_of_eq ?_) n)) (abs_nonneg _) (by positivity)
      rw [abs_mul, abs_two]
    have d2 : (a / 2 ^ 23 + 1 / 2 ^ 100) * (2 * a + (a / 2 ^ 23 + 1 / 2 ^ 100)) = a ^ 2 * (2 / 2 ^ 23 + 1 / 2 ^ 46) + a * (2 / 2 ^ 100 + 2 / 2 ^ 123) + 1 / 2 ^ 200 := by ring
    rw [d2] at d1
    rw [sq] at *
    have a2 : 0 ≤ a ^ 2 := sq_nonneg a
    norm_num at *
    linarith

/-- Rounding, then the square by `powf`. -/
theorem powf_rnd [SquareNear] {r : ℝ} (hr : |r| ≤ 2 ^ 19) : ∃ t, powf (rnd r) 2 = fin t ∧ 0 ≤ t ∧ |t - r ^ 2| ≤ r ^ 2 * (4.2 / 2 ^ 23) + 1 / 2 ^ 76 := by
  obtain ⟨y, e, n⟩ := FineError.rnd_near r (hr.trans (by norm_num))
  obtain ⟨y', e', -, n2⟩ := sq_rnd (r := r) (hr.trans (by norm_num))
  obtain rfl : y = y' := by rw [e] at e'; simpa using e'
  have hy : |y| ≤ 2 ^ 20 := by
    have := abs_add_le (y - r) r
    rw [sub_add_cancel] at this
    norm_num at *
    linarith
  obtain ⟨t, et, t0, nt⟩ := SquareNear.square_near y hy
  have h2 : (2 : Fl) = fin 2 := by simp
  refine ⟨t, by rw [e, h2, et], t0, ?_⟩
  have d3 := abs_sub_le t (y ^ 2) (r ^ 2)
  have d4 : y ^ 2 ≤ r ^ 2 + |y ^ 2 - r ^ 2| := by have := le_abs_self (y ^ 2 - r ^ 2); linarith
  have r2 := sq_nonneg r
  norm_num at *
  linarith

/-- A scaled difference, squared.  The square of the difference is known up to `E`, the scale `σ` up to 12 parts in 2^23. -/
theorem scaled_sq [SquareNear] {x X E s σ : ℝ} (hq : |x ^ 2 - X| ≤ E) (hX : 0 ≤ X) (hE : 0 ≤ E) (hx : |x| ≤ 2 ^ 18) (hσ : 1 ≤ σ) (hs : |s - σ| ≤ σ * (12 / 2 ^ 23)) :
    ∃ t, powf (fin x / fin s) 2 = fin t ∧ 0 ≤ t ∧ |t - X / σ ^ 2| ≤ E * 1.01 + X / σ ^ 2 * (30 / 2 ^ 23) + 1 / 2 ^ 76 := by
  have hσ0 : 0 < σ := by linarith
  rw [abs_le] at hs
  have s0 : 1 / 2 < s := by norm_num at *; linarith
  have sp : 0 < s := by linarith
  have hxs : |x / s| ≤ 2 ^ 19 := by
    rw [abs_div, abs_of_pos sp, div_le_iff₀ sp]
    norm_num at *
    linarith
  obtain ⟨t, et, t0, nt⟩ := powf_rnd hxs
  refine ⟨t, by rw [fin_div _ _ sp.ne', et], t0, ?_⟩
  -- the scale
  set k := σ / s with hk
  have k1 : |k - 1| ≤ 12.1 / 2 ^ 23 := by
    rw [hk, div_sub_one sp.ne', abs_div, abs_of_pos sp, div_le_iff₀ sp, abs_le]
    constructor <;> (norm_num at *; linarith)
  have k2 : |k ^ 2 - 1| ≤ 25 / 2 ^ 23 := by
    rw [show k ^ 2 - 1 = (k - 1) * (2 + (k - 1)) by ring, abs_mul]
    have h2 : |2 + (k - 1)| ≤ 2 + 12.1 / 2 ^ 23 := (abs_add_le _ _).trans (by rw [abs_two]; linarith)
    exact (mul_le_mul k1 h2 (abs_nonneg _) (by norm_num)).trans (by norm_num)
  set G := X / σ ^ 2 with hG
  have G0 : 0 ≤ G := by positivity
  set Q := x ^ 2 / σ ^ 2 with hQ
  have Q0 : 0 ≤ Q := by positivity
  have hQG : |Q - G| ≤ E := by
    rw [hQ, hG, ← sub_div, abs_div, abs_of_pos (by positivity : 0 < σ ^ 2)]
    refine (div_le_self (abs_nonneg _) ?_).trans hq
    nlinarith
  have hsq : (x / s) ^ 2 = Q * k ^ 2 := by
    rw [hQ, hk]; field_simp
  rw [hsq] at nt
  have hQk : |Q * k ^ 2 - Q| ≤ Q * (25 / 2 ^ 23) := by
    rw [show Q * k ^ 2 - Q = Q * (k ^ 2 - 1) by ring, abs_mul, abs_of_nonneg Q0]
    gcongr
  have l1 := le_abs_self (Q - G)
  have l2 := le_abs_self (Q * k ^ 2 - Q)
  rw [abs_le] at *
  constructor <;> (norm_num at *; linarith)

/-- The square of the root. -/
theorem sqrt_sq_near {v : ℝ} (h0 : 0 ≤ v) (h1 : v ≤ 2 ^ 36) : ∃ d, Fl.sqrt (fin v) = fin d ∧ 0 ≤ d ∧ |d| ≤ 2 ^ 19 ∧ |d ^ 2 - v| ≤ v * (2.1 / 2 ^ 23) + 1 / 2 ^ 78 := by
  have r1 : Real.sqrt v ≤ 2 ^ 18 := by rw [Real.sqrt_le_left (by norm_num)]; exact h1.trans (by norm_num)
  have r0 := Real.sqrt_nonneg v
  obtain ⟨y, e, -, n⟩ := sq_rnd (r := Real.sqrt v) (by rw [abs_of_nonneg r0]; exact r1.trans (by norm_num))
  obtain ⟨y', e', n'⟩ := FineError.rnd_near (Real.sqrt v) (by rw [abs_of_nonneg r0]; exact r1.trans (by norm_num))
  obtain rfl : y = y' := by rw [e] at e'; simpa using e'
  rw [Real.sq_sqrt h0] at n
  refine ⟨y, by simp [Fl.sqrt, not_lt.mpr h0, e], rnd_nonneg_fin r0 e, ?_, n⟩
  have := abs_add_le (y - Real.sqrt v) (Real.sqrt v)
  rw [sub_add_cancel] at this
  rw [abs_of_nonneg r0] at *
  norm_num at *
  linarith

/-- The root of a sum of three. -/
theorem sqrt_sum3 {x y z : ℝ} (hx : 0 ≤ x) (hy : 0 ≤ y) (hz : 0 ≤ z) (h : x + y + z ≤ 2 ^ 30) :
    ∃ d, Fl.sqrt (fin x + fin y + fin z) = fin d ∧ 0 ≤ d ∧ |d ^ 2 - (x + y + z)| ≤ (x + y + z) * (5 / 2 ^ 23) + 1 / 2 ^ 70 := by
  obtain ⟨u, eu, nu⟩ := FineError.rnd_near (x + y) (by rw [abs_of_nonneg (by linarith)]; norm_num at *; linarith)
  rw [abs_of_nonneg (by linarith : 0 ≤ x + y), abs_le] at nu
  have u0 := rnd_nonneg_fin (by linarith : 0 ≤ x + y) eu
  obtain ⟨v, ev, nv⟩ := FineError.rnd_near (u + z) (by rw [abs_of_nonneg (by linarith)]; norm_num at *; linarith)
  rw [abs_of_nonneg (by linarith : 0 ≤ u + z), abs_le] at nv
  have v0 := rnd_nonneg_fin (by linarith : 0 ≤ u + z) ev
  obtain ⟨d, ed, d0, -, nd⟩ := sqrt_sq_near v0 (by norm_num at *; linarith)
  refine ⟨d, by rw [fin_add, eu, fin_add, ev, ed], d0, ?_⟩
  rw [abs_le] at nd ⊢
  constructor <;> (norm_num at *; linarith)

end Fl

namespace Distance
variable [FloatModel] [FineError] [SquareNear]

/-- The chroma. -/
theorem chroma_near {a b : ℝ} (ha : |a| ≤ 1000) (hb : |b| ≤ 1000) : RelErr (chroma (fin a) (fin b)) (Real.sqrt (a ^ 2 + b ^ 2)) 8 (1 / 2 ^ 30) := by
  have sq : ∀ x : ℝ, |x| ≤ 1000 → RelErr (powf (fin x) 2) (x ^ 2) 2 (1 / 2 ^ 100) ∧ x ^ 2 ≤ 2 ^ 20 := by
    intro x hx
    obtain ⟨r, e, r0, n⟩ := SquareNear.square_near x (hx.trans (by norm_num))
    have h2 : (2 : Fl) = fin 2 := by simp
    refine ⟨⟨r, by rw [h2, e], r0, n.trans (le_of_eq (by ring))⟩, ?_⟩
    rw [← sq_abs]
    calc |x| ^ 2 ≤ 1000 ^ 2 := by gcongr
      _ ≤ _ := by norm_num
  obtain ⟨s1, b1⟩ := sq a ha
  obtain ⟨s2, b2⟩ := sq b hb
  have h := s1.add s2 (sq_nonneg a) (sq_nonneg b) (by norm_num at *; linarith) (by norm_num) (by norm_num) (by positivity) (by positivity) (by norm_num)
  exact h.sqrt (by positivity) (by norm_num at *; linarith) (by norm_num) (by norm_num) (by positivity) (by norm_num)

/-- A weighting function `1 + k c`, times a factor. -/
theorem scale_near {c : Fl} {C k m : ℝ} (hc : RelErr c C 8 (1 / 2 ^ 30)) (hC : 0 ≤ C) (hC1 : C ≤ 1000) (hk : 0 ≤ k) (hk1 : k ≤ 1) (hm : 1 ≤ m) (hm1 : m ≤ 100) :
    ∃ s, fin m * (1 + fin k * c) = fin s ∧ |s - m * (1 + k * C)| ≤ m * (1 + k * C) * (12 / 2 ^ 23) := by
  obtain ⟨y, rfl, y0, ny⟩ := hc
  have hkC : k * C ≤ 1000 := by nlinarith
  have hkC0 : 0 ≤ k * C := by positivity
  have r1 : RelErr (rnd (k * y)) (k * C) 9.1 (2 / 2 ^ 30 + 1 / 2 ^ 100) := by
    refine (RelErr.round (p := k * y) (A := k * C) (k := 8) (τ := 1 / 2 ^ 30) (by positivity) ?_ hkC0 (hkC.trans (by norm_num)) (by norm_num) (by norm_num) (by positivity) (by norm_num)).weaken hkC0 (by norm_num) (by norm_num)
    rw [← mul_sub, abs_mul, abs_of_nonneg hk]
    calc k * |y - C| ≤ k * (C * 8 / 2 ^ 23 + 1 / 2 ^ 30) := by gcongr
      _ = k * C * 8 / 2 ^ 23 + k * (1 / 2 ^ 30) := by ring
      _ ≤ k * C * 8 / 2 ^ 23 + 1 * (1 / 2 ^ 30) := by gcongr
      _ = _ := by ring
  rw [fin_mul, one_def]
  obtain ⟨z, ez, z0, nz⟩ := r1
  rw [ez, fin_add]
  have hA : 1 ≤ 1 + k * C := by linarith
  set A := 1 + k * C with hAdef
  have r2 : ∃ u, rnd (1 + z) = fin u ∧ 0 ≤ u ∧ |u - A| ≤ A * (10.5 / 2 ^ 23) := by
    obtain ⟨u, eu, nu⟩ := FineError.rnd_near (1 + z) (by
      rw [abs_of_nonneg (by linarith)]
      have := (abs_le.mp nz).2
      norm_num at *
      linarith)
    refine ⟨u, eu, rnd_nonneg_fin (by linarith) eu, ?_⟩
    rw [abs_of_nonneg (by linarith : (0 : ℝ) ≤ 1 + z)] at nu
    rw [abs_le] at nu nz ⊢
    constructor <;> (norm_num at *; linarith)
  obtain ⟨u, eu, u0, nu⟩ := r2
  have hu1 : u ≤ 2000 := by
    have := (abs_le.mp nu).2
    norm_num at *
    linarith
  rw [eu, fin_mul]
  have hmu : |m * u - m * A| ≤ m * A * (10.5 / 2 ^ 23) := by
    rw [← mul_sub, abs_mul, abs_of_nonneg (by linarith), mul_assoc]
    gcongr
  have hmA : 1 ≤ m * A := by nlinarith
  have hmA1 : m * A ≤ 200000 := by nlinarith
  have hmu0 : 0 ≤ m * u := by positivity
  obtain ⟨s, es, ns⟩ := FineError.rnd_near (m * u) (by
    rw [abs_of_nonneg hmu0]
    have := (abs_le.mp hmu).2
    norm_num at *
    linarith)
  refine ⟨s, es, ?_⟩
  rw [abs_of_nonneg hmu0] at ns
  set M := m * A with hM
  rw [abs_le] at hmu ns ⊢
  constructor <;> (norm_num at *; linarith)

/-- The chroma difference. -/
theorem chroma_diff {c c' : Fl} {C C' : ℝ} (hc : RelErr c C 8 (1 / 2 ^ 30)) (hc' : RelErr c' C' 8 (1 / 2 ^ 30)) (hC : 0 ≤ C) (hC' : 0 ≤ C') (hS : C + C' ≤ 2000) :
    ∃ x t, c - c' = fin x ∧ |x| ≤ 2 ^ 18 ∧ |x ^ 2 - (C - C') ^ 2| ≤ (C + C') ^ 2 * (19.2 / 2 ^ 23) + 1 / 2 ^ 30 ∧ powf (fin x) 2 = fin t ∧ 0 ≤ t ∧
      |t - (C - C') ^ 2| ≤ (C + C') ^ 2 * (21.3 / 2 ^ 23) + 1 / 2 ^ 30 := by
  obtain ⟨y, rfl, y0, ny⟩ := hc
  obtain ⟨y', rfl, y0', ny'⟩ := hc'
  set S := C + C' with hSd
  have S0 : 0 ≤ S := by positivity
  have he : |(y - y') - (C - C')| ≤ S * (8 / 2 ^ 23) + 1 / 2 ^ 29 := by
    rw [abs_le] at ny ny' ⊢
    constructor <;> (norm_num at *; linarith)
  have hCS : |C - C'| ≤ S := by rw [abs_le]; constructor <;> linarith
  have e1 : |(y - y') ^ 2 - (C - C') ^ 2| ≤ S ^ 2 * (16.6 / 2 ^ 23) + 1 / 2 ^ 31 := by
    have h2 : |2 * (C - C') + ((y - y') - (C - C'))| ≤ 2 * S + (S * (8 / 2 ^ 23) + 1 / 2 ^ 29) := by
      refine (abs_add_le _ _).trans (add_le_add ?_ he)
      rw [abs_mul, abs_two]
      gcongr
    have h3 := mul_le_mul he h2 (abs_nonneg _) (by positivity)
    rw [← abs_mul, show ((y - y') - (C - C')) * (2 * (C - C') + ((y - y') - (C - C'))) = (y - y') ^ 2 - (C - C') ^ 2 by ring] at h3
    refine h3.trans ?_
    have h4 : (S * (8 / 2 ^ 23) + 1 / 2 ^ 29) * (2 * S + (S * (8 / 2 ^ 23) + 1 / 2 ^ 29)) = S ^ 2 * (16 / 2 ^ 23 + 64 / 2 ^ 46) + S * (2 / 2 ^ 29 + 16 / 2 ^ 52) + 1 / 2 ^ 58 := by ring
    rw [h4]
    have h5 := sq_nonneg (S / 2 ^ 12 - 1 / 2 ^ 17)
    have h6 : (S / 2 ^ 12 - 1 / 2 ^ 17) ^ 2 = S ^ 2 * (1 / 2 ^ 24) - S * (1 / 2 ^ 28) + 1 / 2 ^ 34 := by ring
    rw [h6] at h5
    have S2 := sq_nonneg S
    norm_num at *
    linarith
  have hr : |y - y'| ≤ 2 ^ 17 := by
    have := abs_add_le ((y - y') - (C - C')) (C - C')
    rw [sub_add_cancel] at this
    norm_num at *
    linarith
  obtain ⟨x, ex, nx⟩ := FineError.rnd_near (y - y') (hr.trans (by norm_num))
  obtain ⟨x', ex', -, sx⟩ := sq_rnd (r := y - y') (hr.trans (by norm_num))
  obtain rfl : x = x' := by rw [ex] at ex'; simpa using ex'
  obtain ⟨t, et, t0, nt⟩ := powf_rnd (r := y - y') (hr.trans (by norm_num))
  rw [ex] at et
  have hCS2 : (C - C') ^ 2 ≤ S ^ 2 := by rw [← sq_abs (C - C')]; gcongr
  have l1 := le_abs_self ((y - y') ^ 2 - (C - C') ^ 2)
  refine ⟨x, t, by rw [fin_sub, ex], ?_, ?_, et, t0, ?_⟩
  · have := abs_add_le (x - (y - y')) (y - y')
    rw [sub_add_cancel] at this
    norm_num at *
    linarith
  · have S2 := sq_nonneg S
    rw [abs_le] at *
    constructor <;> (norm_num at *; linarith)
  · have S2 := sq_nonneg S
    rw [abs_le] at *
    constructor <;> (norm_num at *; linarith)

/-- The distance of two points is at most the sum of their distances from the origin. -/
theorem plane_le (a b a' b' : ℝ) : (a - a') ^ 2 + (b - b') ^ 2 ≤ (Real.sqrt (a ^ 2 + b ^ 2) + Real.sqrt (a' ^ 2 + b' ^ 2)) ^ 2 := by
  have h := hue_part_nonneg a b (-a') (-b')
  have h1 := Real.sq_sqrt (by positivity : 0 ≤ a ^ 2 + b ^ 2)
  have h2 := Real.sq_sqrt (by positivity : 0 ≤ a' ^ 2 + b' ^ 2)
  rw [neg_sq, neg_sq] at h
  nlinarith

/-- The difference whose root is the hue difference. -/
theorem hue_near {a b a' b' t : ℝ} (ha : |a| ≤ 200) (hb : |b| ≤ 200) (ha' : |a'| ≤ 200) (hb' : |b'| ≤ 200) {C C' : ℝ} (hC : C = Real.sqrt (a ^ 2 + b ^ 2)) (hC' : C' = Real.sqrt (a' ^ 2 + b' ^ 2))
    (nt : |t - (C - C') ^ 2| ≤ (C + C') ^ 2 * (21.3 / 2 ^ 23) + 1 / 2 ^ 30) (hS : C + C' ≤ 2000) :
    ∃ v, powf (fin a - fin a') 2 + powf (fin b - fin b') 2 - fin t = fin v ∧
      |v - ((a - a') ^ 2 + (b - b') ^ 2 - (C - C') ^ 2)| ≤ (C + C') ^ 2 * (28.8 / 2 ^ 23) + 1 / 2 ^ 29 := by
  have big : ∀ {x : ℝ}, |x| ≤ 200 → |x| ≤ 1000 := fun h => h.trans (by norm_num)
  have D0 := hue_part_nonneg a b a' b'
  have D1 := plane_le a b a' b'
  rw [← hC, ← hC'] at D0 D1
  have hC0 : 0 ≤ C := hC ▸ Real.sqrt_nonneg _
  have hC0' : 0 ≤ C' := hC' ▸ Real.sqrt_nonneg _
  have n1 := sq_nonneg (a - a')
  have n2 := sq_nonneg (b - b')
  set S := C + C' with hSd
  have S2 : S ^ 2 ≤ 2000 ^ 2 := by gcongr
  obtain ⟨p, ep, p0, np⟩ := (square_diff (big ha) (big ha')).add (square_diff (big hb) (big hb')) n1 n2 (by norm_num at *; linarith) (by norm_num) (by norm_num) (by positivity) (by positivity) (by norm_num)
  rw [ep, fin_sub]
  set D := (a - a') ^ 2 + (b - b') ^ 2 with hD
  set T := (C - C') ^ 2 with hT
  have T0 : 0 ≤ T := sq_nonneg _
  have hpt : |(p - t) - (D - T)| ≤ S ^ 2 * (27.5 / 2 ^ 23) + 3 / 2 ^ 31 := by
    have n0 := sq_nonneg S
    rw [abs_le] at np nt ⊢
    constructor <;> (norm_num at *; linarith)
  have hp : |p - t| ≤ S ^ 2 * (1 + 27.5 / 2 ^ 23) + 3 / 2 ^ 31 := by
    have := abs_add_le ((p - t) - (D - T)) (D - T)
    rw [sub_add_cancel, abs_of_nonneg D0] at this
    linarith
  obtain ⟨v, ev, nv⟩ := FineError.rnd_near (p - t) (hp.trans (by norm_num at *; linarith))
  refine ⟨v, ev, ?_⟩
  have n0 := sq_nonneg S
  have := abs_sub_le v (p - t) (D - T)
  norm_num at *
  linarith

set_option maxHeartbeats 1600000 in
/-- What CIE94 computes: NaN if rounding makes the squared hue difference negative, otherwise a number whose square is close to the square of the formula. -/
theorem cie94_near {p q : Color} {l a b l' a' b' kL k1 k2 kC kH C C' : ℝ} (hp : p.comps = [fin l, fin a, fin b]) (hq : q.comps = [fin l', fin a', fin b'])
    (hl : |l| ≤ 200) (ha : |a| ≤ 200) (hb : |b| ≤ 200) (hl' : |l'| ≤ 200) (ha' : |a'| ≤ 200) (hb' : |b'| ≤ 200)
    (hC : C = Real.sqrt (a ^ 2 + b ^ 2)) (hC' : C' = Real.sqrt (a' ^ 2 + b' ^ 2))
    (h0 : 1 ≤ kL ∧ kL ≤ 100) (h1 : 0 ≤ k1 ∧ k1 ≤ 1) (h2 : 0 ≤ k2 ∧ k2 ≤ 1) (h3 : 1 ≤ kC ∧ kC ≤ 100) (h4 : 1 ≤ kH ∧ kH ≤ 100) :
    ∃ v, |v - ((a - a') ^ 2 + (b - b') ^ 2 - (C - C') ^ 2)| ≤ (C + C') ^ 2 * (28.8 / 2 ^ 23) + 1 / 2 ^ 29 ∧
      (v < 0 → powf .nan 2 = .nan → cie94 (fin kL) (fin k1) (fin k2) (fin kC) (fin kH) p q = ok .nan) ∧
      (0 ≤ v → ∃ d, cie94 (fin kL) (fin k1) (fin k2) (fin kC) (fin kH) p q = ok (fin d) ∧ 0 ≤ d ∧
        |d ^ 2 - ((l - l') ^ 2 / kL ^ 2 + (C - C') ^ 2 / (kC * (1 + k1 * C)) ^ 2 + ((a - a') ^ 2 + (b - b') ^ 2 - (C - C') ^ 2) / (kH * (1 + k2 * C)) ^ 2)| ≤
          ((l - l') ^ 2 + (C + C') ^ 2) * (100 / 2 ^ 23) + 1 / 2 ^ 24) := by
  have big : ∀ {x : ℝ}, |x| ≤ 200 → |x| ≤ 1000 := fun h => h.trans (by norm_num)
  have c1 := chroma_near (big ha) (big hb)
  have c2 := chroma_near (big ha') (big hb')
  rw [← hC] at c1
  rw [← hC'] at c2
  have hC0 : 0 ≤ C := hC ▸ Real.sqrt_nonneg _
  have hC0' : 0 ≤ C' := hC' ▸ Real.sqrt_nonneg _
  have bound : ∀ x y : ℝ, |x| ≤ 200 → |y| ≤ 200 → Real.sqrt (x ^ 2 + y ^ 2) ≤ 300 := by
    intro x y hx hy
    rw [Real.sqrt_le_left (by norm_num)]
    have e1 : x ^ 2 ≤ 200 ^ 2 := by rw [← sq_abs]; gcongr
    have e2 : y ^ 2 ≤ 200 ^ 2 := by rw [← sq_abs]; gcongr
    linarith
  have C1 : C ≤ 300 := hC ▸ bound _ _ ha hb
  have C1' : C' ≤ 300 := hC' ▸ bound _ _ ha' hb'
  obtain ⟨x, t, ex, bx, nx, et, t0, nt⟩ := chroma_diff c1 c2 hC0 hC0' (by linarith)
  obtain ⟨v, ev, nv⟩ := hue_near ha hb ha' hb' hC hC' nt (by linarith)
  have D0 := hue_part_nonneg a b a' b'
  have D1 := plane_le a b a' b'
  rw [← hC, ← hC'] at D0 D1
  have eval : cie94 (fin kL) (fin k1) (fin k2) (fin kC) (fin kH) p q =
      ok (Fl.sqrt (powf ((fin l - fin l') / (fin kL * 1)) 2 + powf (fin x / (fin kC * (1 + fin k1 * chroma (fin a) (fin b)))) 2 + powf (Fl.sqrt (fin v) / (fin kH * (1 + fin k2 * chroma (fin a) (fin b)))) 2)) := by
    rw [← ev, ← et, ← ex]
    obtain ⟨cls, ct, comps, al, mx, mn, sp⟩ := p
    obtain ⟨cls', ct', comps', al', mx', mn', sp'⟩ := q
    simp only at hp hq
    subst hp hq
    simp only [cie94, Conv.get3_0, Conv.get3_1, Conv.get3_2, ok_bind]
  refine ⟨v, nv, fun hv hnan => ?_, fun hv => ?_⟩
  · have hs : Fl.sqrt (fin v) = .nan := by simp [Fl.sqrt, hv]
    have addn : ∀ y : Fl, y + .nan = .nan := fun y => by cases y <;> rfl
    rw [eval, hs, nan_div, hnan, addn]
    rfl
  set S := C + C' with hS
  have S0 : 0 ≤ S := by positivity
  have S1 : S ≤ 600 := by linarith
  have S2 : S ^ 2 ≤ 600 ^ 2 := by gcongr
  have S2' := sq_nonneg S
  set H := (a - a') ^ 2 + (b - b') ^ 2 - (C - C') ^ 2 with hH
  set T := (C - C') ^ 2 with hT
  have T0 : 0 ≤ T := sq_nonneg _
  have HT : H + T ≤ S ^ 2 := by rw [hH]; linarith
  set L := (l - l') ^ 2 with hL
  have L0 : 0 ≤ L := sq_nonneg _
  have hll : |l - l'| ≤ 400 := (abs_sub _ _).trans (by linarith)
  have L1 : L ≤ 400 ^ 2 := by rw [hL, ← sq_abs]; gcongr
  -- the three terms
  obtain ⟨z, ez, -, nz⟩ := sq_rnd (r := l - l') (hll.trans (by norm_num))
  have bz : |z| ≤ 2 ^ 18 := by
    refine abs_le_of_sq_le_sq ?_ (by norm_num)
    rw [abs_le] at nz
    norm_num at *
    linarith
  obtain ⟨sL, esL, nsL⟩ : ∃ s, fin kL * 1 = fin s ∧ |s - kL| ≤ kL * (12 / 2 ^ 23) := by
    obtain ⟨s, es, ns⟩ := FineError.rnd_near (kL * 1) (by rw [mul_one, abs_of_nonneg (by linarith)]; exact h0.2.trans (by norm_num))
    refine ⟨s, by rw [one_def, fin_mul, es], ?_⟩
    rw [mul_one, abs_of_nonneg (by linarith : 0 ≤ kL)] at ns
    have := h0.1
    norm_num at *
    linarith
  obtain ⟨sC, esC, nsC⟩ := scale_near c1 hC0 (by linarith) h1.1 h1.2 h3.1 h3.2
  obtain ⟨sH, esH, nsH⟩ := scale_near c1 hC0 (by linarith) h2.1 h2.2 h4.1 h4.2
  have vb : v ≤ 2 ^ 36 := by
    have := (abs_le.mp nv).2
    norm_num at *
    linarith
  obtain ⟨dh, edh, dh0, bdh, ndh⟩ := sqrt_sq_near hv vb
  have bdh' : |dh| ≤ 2 ^ 18 := by
    refine abs_le_of_sq_le_sq ?_ (by norm_num)
    rw [abs_le] at ndh nv
    norm_num at *
    linarith
  have ndh' : |dh ^ 2 - H| ≤ S ^ 2 * (31 / 2 ^ 23) + 1 / 2 ^ 28 := by
    rw [abs_le] at ndh nv ⊢
    constructor <;> (norm_num at *; linarith)
  have hσC : 1 ≤ kC * (1 + k1 * C) := by nlinarith [mul_nonneg h1.1 hC0, h3.1]
  have hσH : 1 ≤ kH * (1 + k2 * C) := by nlinarith [mul_nonneg h2.1 hC0, h4.1]
  obtain ⟨t1, et1, t10, nt1⟩ := scaled_sq nz L0 (by positivity) bz h0.1 nsL
  obtain ⟨t2, et2, t20, nt2⟩ := scaled_sq nx T0 (by positivity) bx hσC nsC
  obtain ⟨t3, et3, t30, nt3⟩ := scaled_sq ndh' D0 (by positivity) bdh' hσH nsH
  have small : ∀ {X σ : ℝ}, 0 ≤ X → 1 ≤ σ → X / σ ^ 2 ≤ X := fun {X σ} hX hσ => div_le_self hX (by nlinarith)
  have g1 := small L0 h0.1
  have g2 := small T0 hσC
  have g3 := small D0 hσH
  have p1 : 0 ≤ L / kL ^ 2 := by positivity
  have p2 : 0 ≤ T / (kC * (1 + k1 * C)) ^ 2 := by positivity
  have p3 : 0 ≤ H / (kH * (1 + k2 * C)) ^ 2 := by positivity
  set G1 := L / kL ^ 2
  set G2 := T / (kC * (1 + k1 * C)) ^ 2
  set G3 := H / (kH * (1 + k2 * C)) ^ 2
  clear_value G1 G2 G3 L H T S
  clear hσC hσH nsL nsC nsH small ndh ndh' nz nx nv nt bz bx bdh bdh' D1 bound c1 c2
  rw [abs_le] at nt1 nt2 nt3
  obtain ⟨d, ed, d0, nd⟩ := sqrt_sum3 t10 t20 t30 (by norm_num at nt1 nt2 nt3 ⊢; linarith)
  refine ⟨d, ?_, d0, ?_⟩
  · rw [eval, fin_sub, ez, esL, esC, esH, edh, et1, et2, et3, ed]
  · clear eval ez esL esC esH edh et1 et2 et3 ed
    rw [abs_le] at nd ⊢
    constructor <;> (norm_num at nd nt1 nt2 nt3 ⊢; linarith)

end Distance

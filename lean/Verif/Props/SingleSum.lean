import Verif.Props.SingleMix
import Verif.Props.Sums
import Verif.Props.WholeBytes

/-!
# C181: sums and differences in single precision

C115 and C116 say what sums and differences are in exact arithmetic.  Here the eight classes that add and subtract channel by channel, with every rounding of single precision.
-/

open Outcome Fl Prog ObjectSpec ConvSpec BlendSpec CalcSpec CombineSpec Calc

namespace Calc

section
variable [FloatModel]

theorem within_eq (t : ColorType) (i : Nat) (y : ℝ) : max (min y (setterRange t i).2) (setterRange t i).1 = within t i y := by
  rw [within, max_comm, min_comm]

/-- Limiting brings numbers no further apart. -/
theorem within_close (t : ColorType) (i : Nat) (x y : ℝ) : |within t i x - within t i y| ≤ |x - y| := by
  unfold within
  refine (abs_max_sub_max_le_max _ _ _ _).trans ?_
  rw [sub_self, abs_zero, max_eq_right (abs_nonneg _)]
  refine (abs_min_sub_min_le_max _ _ _ _).trans ?_
  rw [sub_self, abs_zero, max_eq_right (abs_nonneg _)]

/-- The channels of a valid colour are at most the span of the class. -/
theorem chan_size {t : ColorType} {c : Color} (hc : Proper t c) {i : Nat} (hi : i < Color.count t) : |chan c i| ≤ span t := by
  obtain ⟨p, q, e, hp, hq⟩ := limits_whole t i
  have h := hc.chan_range hi
  rw [e] at h
  have hp' : |(p : ℝ)| ≤ span t := by exact_mod_cast hp
  have hq' : |(q : ℝ)| ≤ span t := by exact_mod_cast hq
  rw [abs_le] at hp' hq' ⊢
  constructor <;> linarith

theorem span_size {t : ColorType} (ht : Flat t) : 1 ≤ (span t : ℝ) ∧ (span t : ℝ) ≤ 255 := by rcases ht with rfl | rfl | rfl | rfl | rfl | rfl | rfl | rfl <;> norm_num [span]

theorem range_order {t : ColorType} {c : Color} (hc : Proper t c) {i : Nat} (hi : i < Color.count t) : (setterRange t i).1 ≤ (setterRange t i).2 := (hc.chan_range hi).1.trans (hc.chan_range hi).2

theorem within_mem {t : ColorType} {c : Color} (hc : Proper t c) {i : Nat} (hi : i < Color.count t) (x : ℝ) : (setterRange t i).1 ≤ within t i x ∧ within t i x ≤ (setterRange t i).2 :=
  ⟨le_max_left _ _, max_le (range_order hc hi) (min_le_left _ _)⟩

/-- The difference of two colours of one of the eight classes, when the differences of the components are numbers. -/
theorem subVal_flat {t : ColorType} (ht : Flat t) {a b : Color} (ha : Proper t a) (hb : Proper t b) (w : Fl) (ia : Bool) (g : Nat → ℝ)
    (hg : ∀ i < Color.count t, minus w (fin (chan a i)) (fin (chan b i)) = fin (g i)) :
    subVal t w ia a b = ok ⟨t, t, (List.range (Color.count t)).map (fun i => fin (within t i (g i))),
      if Color.scalesAlpha t then Color.clamp (alphaOf (minus w) ia a b / 255) 1 0 else alphaOf (minus w) ia a b, Color.maxOf t, Color.minOf t, a.space⟩ := by
  have hz := zip_all (minus w) ha.col hb.col
  rw [ha.comps, hb.comps, zipWith_range] at hz
  have e : (List.range (Color.count t)).map (fun i => minus w (fin (chan a i)) (fin (chan b i))) = (List.range (Color.count t)).map (fun i => fin (g i)) :=
    List.map_congr_left fun i hi => hg i (by simpa using hi)
  rw [e] at hz
  have hc := construct_limit ht g (alphaOf (minus w) ia a b) a.space
  simp only [within_eq] at hc
  rcases ht with rfl | rfl | rfl | rfl | rfl | rfl | rfl | rfl <;>
    (simp only [Color.count] at hz hc ⊢
     simp only [subVal, hz, ok_bind, hc])

end

section
variable [FloatModel] [FineError]

/-- The root of the weighted sum of two squares, for any two weights. -/
theorem quad2_near {X Y : Fl} {w1 w2 x y : ℝ} (h1 : 0 ≤ w1 ∧ w1 ≤ 1) (h2 : 0 ≤ w2 ∧ w2 ≤ 1) (hx : |x| ≤ 255) (hy : |y| ≤ 255) (hX : RelErr (powf X 2) (x ^ 2) 4.2 (1 / 2 ^ 76))
    (hY : RelErr (powf Y 2) (y ^ 2) 4.2 (1 / 2 ^ 76)) : RelErr (quadratic (fin w1) (fin w2) X Y) (Real.sqrt (w1 * x ^ 2 + w2 * y ^ 2)) 8 (1 / 2 ^ 30) := by
  have sq : ∀ x : ℝ, |x| ≤ 255 → x ^ 2 ≤ 65025 := fun x h => by
    rw [← sq_abs]
    calc |x| ^ 2 ≤ 255 ^ 2 := by gcongr
      _ = 65025 := by norm_num
  have part : ∀ (Z : Fl) (w z : ℝ), 0 ≤ w → w ≤ 1 → |z| ≤ 255 → RelErr (powf Z 2) (z ^ 2) 4.2 (1 / 2 ^ 76) →
      0 ≤ w * z ^ 2 ∧ w * z ^ 2 ≤ 65025 ∧ RelErr (fin w * powf Z 2) (w * z ^ 2) 6.5 (1 / 2 ^ 73) := by
    rintro Z w z h0 h1 hz ⟨p, ep, p0, np⟩
    have z2 := sq z hz
    have z0 := sq_nonneg z
    have A0 : 0 ≤ w * z ^ 2 := by positivity
    have A1 : w * z ^ 2 ≤ 65025 := by nlinarith
    refine ⟨A0, A1, ?_⟩
    rw [ep, fin_mul]
    refine (RelErr.round (p := w * p) (A := w * z ^ 2) (k := 4.2) (τ := 1 / 2 ^ 76) (by positivity) ?_ A0 (A1.trans (by norm_num)) (by norm_num) (by norm_num) (by positivity) (by norm_num)).weaken A0
      (by norm_num) (by norm_num)
    rw [← mul_sub, abs_mul, abs_of_nonneg h0]
    refine (mul_le_mul_of_nonneg_left np h0).trans ?_
    have : w * (1 / 2 ^ 76) ≤ 1 / 2 ^ 76 := by nlinarith
    have e : w * (z ^ 2 * 4.2 / 2 ^ 23 + 1 / 2 ^ 76) = w * z ^ 2 * 4.2 / 2 ^ 23 + w * (1 / 2 ^ 76) := by ring
    rw [e]; linarith
  obtain ⟨A0, A1, first⟩ := part X w1 x h1.1 h1.2 hx hX
  obtain ⟨B0, B1, second⟩ := part Y w2 y h2.1 h2.2 hy hY
  have sum := first.add second A0 B0 (by linarith [show (65025 + 65025 : ℝ) ≤ 2 ^ 40 by norm_num]) (by norm_num) (by norm_num) (by positivity) (by positivity) (by norm_num)
  rw [quadratic]
  exact sum.sqrt (by positivity) (by linarith [show (65025 + 65025 : ℝ) ≤ 2 ^ 40 by norm_num]) (by norm_num) (by norm_num) (by positivity) (by norm_num)

/-- One weighted number. -/
theorem part_near {X : Fl} {w x M : ℝ} (h0 : 0 ≤ w) (h1 : w ≤ 1) (hM0 : 0 ≤ M) (hM : M ≤ 255) (hx : |x| ≤ M) (hX : Near X x (M / 2 ^ 23 + 1 / 2 ^ 100)) :
    Near (fin w * X) (w * x) (M * (2.1 / 2 ^ 23) + 1 / 2 ^ 90) := by
  obtain ⟨p, rfl, np⟩ := hX
  set δ := M / 2 ^ 23 + 1 / 2 ^ 100 with hδ
  have δ0 : 0 ≤ δ := by positivity
  have hp : |p| ≤ M + δ := by have := abs_add_le (p - x) x; rw [sub_add_cancel] at this; linarith
  have hwp : |w * p| ≤ M + δ := by
    rw [abs_mul, abs_of_nonneg h0]
    calc w * |p| ≤ 1 * (M + δ) := by gcongr
      _ = M + δ := one_mul _
  have hMδ : M + δ ≤ 256 := by rw [hδ]; norm_num; linarith
  obtain ⟨s, es, ns⟩ := FineError.rnd_near (w * p) (hwp.trans (hMδ.trans (by norm_num)))
  refine ⟨s, by rw [fin_mul, es], ?_⟩
  have h := abs_sub_le s (w * p) (w * x)
  rw [← mul_sub, abs_mul w, abs_of_nonneg h0] at h
  have h2 : w * |p - x| ≤ 1 * δ := by gcongr
  have h3 : |w * p| / 2 ^ 23 ≤ (M + δ) / 2 ^ 23 := by gcongr
  have h4 : |s - w * x| ≤ (M + δ) / 2 ^ 23 + 1 / 2 ^ 100 + δ := by linarith
  refine h4.trans ?_
  rw [hδ]
  clear_value δ
  ring_nf
  norm_num
  linarith

/-- The weighted sum of two numbers, for any two weights. -/
theorem lin2_near {X Y : Fl} {w1 w2 x y M : ℝ} (h1 : 0 ≤ w1 ∧ w1 ≤ 1) (h2 : 0 ≤ w2 ∧ w2 ≤ 1) (hM0 : 0 ≤ M) (hM : M ≤ 255) (hx : |x| ≤ M) (hy : |y| ≤ M)
    (hX : Near X x (M / 2 ^ 23 + 1 / 2 ^ 100)) (hY : Near Y y (M / 2 ^ 23 + 1 / 2 ^ 100)) : Near (linear (fin w1) (fin w2) X Y) (w1 * x + w2 * y) (M * (6.3 / 2 ^ 23) + 1 / 2 ^ 80) := by
  obtain ⟨s, es, ns⟩ := part_near h1.1 h1.2 hM0 hM hx hX
  obtain ⟨t, et, nt⟩ := part_near h2.1 h2.2 hM0 hM hy hY
  have tot : |s + t - (w1 * x + w2 * y)| ≤ M * (4.2 / 2 ^ 23) + 1 / 2 ^ 89 := by
    rw [show s + t - (w1 * x + w2 * y) = (s - w1 * x) + (t - w2 * y) by ring]
    refine (abs_add_le _ _).trans ((add_le_add ns nt).trans (le_of_eq ?_))
    ring
  have hr : |w1 * x + w2 * y| ≤ 2 * M := by
    refine (abs_add_le _ _).trans ?_
    rw [abs_mul, abs_mul, abs_of_nonneg h1.1, abs_of_nonneg h2.1]
    have a1 : w1 * |x| ≤ 1 * M := by gcongr; exact h1.2
    have a2 : w2 * |y| ≤ 1 * M := by gcongr; exact h2.2
    linarith
  have hst : |s + t| ≤ 2 * M + (M * (4.2 / 2 ^ 23) + 1 / 2 ^ 89) := by
    have := abs_add_le (s + t - (w1 * x + w2 * y)) (w1 * x + w2 * y); rw [sub_add_cancel] at this; linarith
  obtain ⟨r, er, nr⟩ := FineError.rnd_near (s + t) (hst.trans (by norm_num; linarith))
  refine ⟨r, by rw [linear, es, et, fin_add, er], ?_⟩
  have h := abs_sub_le r (s + t) (w1 * x + w2 * y)
  have h3 : |s + t| / 2 ^ 23 ≤ (2 * M + (M * (4.2 / 2 ^ 23) + 1 / 2 ^ 89)) / 2 ^ 23 := by gcongr
  clear nt ns
  norm_num at tot h3 nr ⊢
  linarith

/-- The difference of a number and a weighted number. -/
theorem minus_near {X Y : Fl} {w x y M : ℝ} (h0 : 0 ≤ w) (h1 : w ≤ 1) (hM0 : 0 ≤ M) (hM : M ≤ 255) (hx : |x| ≤ M) (hy : |y| ≤ M)
    (hX : Near X x (M / 2 ^ 23 + 1 / 2 ^ 100)) (hY : Near Y y (M / 2 ^ 23 + 1 / 2 ^ 100)) : Near (minus (fin w) X Y) (x - w * y) (M * (5.2 / 2 ^ 23) + 1 / 2 ^ 80) := by
  obtain ⟨t, et, nt⟩ := part_near h0 h1 hM0 hM hy hY
  obtain ⟨s, rfl, ns⟩ := hX
  have tot : |s - t - (x - w * y)| ≤ M * (3.1 / 2 ^ 23) + 1 / 2 ^ 89 := by
    rw [show s - t - (x - w * y) = (s - x) - (t - w * y) by ring]
    refine (abs_sub _ _).trans ((add_le_add ns nt).trans ?_)
    norm_num
    linarith
  have hr : |x - w * y| ≤ 2 * M := by
    refine (abs_sub _ _).trans ?_
    rw [abs_mul, abs_of_nonneg h0]
    have a2 : w * |y| ≤ 1 * M := by gcongr
    linarith
  have hst : |s - t| ≤ 2 * M + (M * (3.1 / 2 ^ 23) + 1 / 2 ^ 89) := by
    have := abs_add_le (s - t - (x - w * y)) (x - w * y); rw [sub_add_cancel] at this; linarith
  obtain ⟨r, er, nr⟩ := FineError.rnd_near (s - t) (hst.trans (by norm_num; linarith))
  refine ⟨r, by rw [minus, et, fin_sub, er], ?_⟩
  have h := abs_sub_le r (s - t) (x - w * y)
  have h3 : |s - t| / 2 ^ 23 ≤ (2 * M + (M * (3.1 / 2 ^ 23) + 1 / 2 ^ 89)) / 2 ^ 23 := by gcongr
  clear nt ns
  norm_num at tot h3 nr ⊢
  linarith

/-- The alpha value of the true-colour classes, for numbers that may lie outside 0..1. -/
theorem scaled_wide {Z : Fl} {r e : ℝ} (hr : |r| ≤ 2) (he : e ≤ 1) (hZ : Near Z (r * 255) (255 * e)) : Near (Color.clamp (Z / 255) 1 0) (max 0 (min 1 r)) (e + 1 / 10 ^ 6) := by
  obtain ⟨z, rfl, nz⟩ := hZ
  have hz : |z / 255 - r| ≤ e := by
    rw [show z / 255 - r = (z - r * 255) / 255 by ring, abs_div, abs_of_pos (by norm_num : (0 : ℝ) < 255), div_le_iff₀ (by norm_num)]
    linarith
  have hz3 : |z / 255| ≤ 3 := by
    have := abs_add_le (z / 255 - r) r
    rw [sub_add_cancel] at this
    linarith
  obtain ⟨y, ey, n⟩ := FineError.rnd_near (z / 255) (hz3.trans (by norm_num))
  have hn : |y - r| ≤ e + 1 / 10 ^ 6 := by
    have := abs_sub_le y (z / 255) r
    norm_num at n hz3 ⊢
    linarith
  rw [lit_def, fin_div _ _ (by norm_num), ey, one_def, zero_def, Color.clamp_fin]
  refine ⟨_, rfl, ?_⟩
  rw [max_comm, min_comm]
  refine (abs_max_sub_max_le_max _ _ _ _).trans (max_le (by rw [sub_self, abs_zero]; exact (abs_nonneg _).trans hn) ?_)
  exact (abs_min_sub_min_le_max _ _ _ _).trans (max_le (by rw [sub_self, abs_zero]; exact (abs_nonneg _).trans hn) hn)

/-- As `scaled_wide` for a value that was limited to 0..255 before. -/
theorem scaled_byte {Z : Fl} {r e : ℝ} (he : e ≤ 1) (hZ : Near Z (r * 255) (255 * e)) : Near (Color.clamp (byteLimit Z / 255) 1 0) (max 0 (min 1 r)) (e + 1 / 10 ^ 6) := by
  obtain ⟨z, rfl, nz⟩ := hZ
  have u0 : 0 ≤ max 0 (min 1 r) := le_max_left _ _
  have u1 : max 0 (min 1 r) ≤ 1 := max_le (by norm_num) (min_le_left _ _)
  have hu : min (max (r * 255) 0) 255 = max 0 (min 1 r) * 255 := by
    rcases le_total r 0 with h | h
    · rw [max_eq_right (by linarith : r * 255 ≤ 0), min_eq_right (h.trans (by norm_num)), max_eq_left h]; norm_num
    · rw [max_eq_left (by linarith : 0 ≤ r * 255)]
      rcases le_total r 1 with h' | h'
      · rw [min_eq_left (by linarith), min_eq_right h', max_eq_right h]
      · rw [min_eq_right (by linarith), min_eq_left h']; norm_num
  have hn : Near (byteLimit (fin z)) (max 0 (min 1 r) * 255) (255 * e) := by
    rw [byte_fin, ← hu]
    refine ⟨_, rfl, ?_⟩
    have e0 := (abs_nonneg _).trans nz
    refine (abs_min_sub_min_le_max _ _ _ _).trans (max_le ?_ (by rw [sub_self, abs_zero]; exact e0))
    exact (abs_max_sub_max_le_max _ _ _ _).trans (max_le nz (by rw [sub_self, abs_zero]; exact e0))
  have := scaled_wide (r := max 0 (min 1 r)) (by rw [abs_of_nonneg u0]; linarith) he hn
  rwa [min_eq_right u1, max_eq_right u0] at this

variable [SquareNear]

theorem weighted_size (t : ColorType) {w1 w2 x y M : ℝ} (h1 : 0 ≤ w1 ∧ w1 ≤ 1) (h2 : 0 ≤ w2 ∧ w2 ≤ 1) (hM : 0 ≤ M) (hx : |x| ≤ M) (hy : |y| ≤ M) : |weighted t w1 w2 x y| ≤ 2 * M := by
  unfold weighted
  split
  · rw [abs_of_nonneg (Real.sqrt_nonneg _)]
    refine Real.sqrt_le_iff.mpr ⟨by linarith, ?_⟩
    have sx : x ^ 2 ≤ M ^ 2 := by rw [← sq_abs]; gcongr
    have sy : y ^ 2 ≤ M ^ 2 := by rw [← sq_abs]; gcongr
    have a1 : w1 * x ^ 2 ≤ 1 * M ^ 2 := by gcongr; exact h1.2
    have a2 : w2 * y ^ 2 ≤ 1 * M ^ 2 := by gcongr; exact h2.2
    have := sq_nonneg M
    rw [mul_pow]
    linarith
  · refine (abs_add_le _ _).trans ?_
    rw [abs_mul, abs_mul, abs_of_nonneg h1.1, abs_of_nonneg h2.1]
    have a1 : w1 * |x| ≤ 1 * M := by gcongr; exact h1.2
    have a2 : w2 * |y| ≤ 1 * M := by gcongr; exact h2.2
    linarith

/-- The combination of two numbers that may have been rounded once. -/
theorem comb2_near (t : ColorType) {X Y : Fl} {w1 w2 x y M : ℝ} (h1 : 0 ≤ w1 ∧ w1 ≤ 1) (h2 : 0 ≤ w2 ∧ w2 ≤ 1) (hM0 : 1 ≤ M) (hM : M ≤ 255) (hx : |x| ≤ M) (hy : |y| ≤ M)
    (hX : X = fin x ∨ X = rnd x) (hY : Y = fin y ∨ Y = rnd y) : Near (combF t (fin w1) (fin w2) X Y) (weighted t w1 w2 x y) (2 * M / 10 ^ 6) := by
  have hs := weighted_size t h1 h2 (by linarith : 0 ≤ M) hx hy
  unfold combF weighted at *
  split
  · next h =>
    rw [if_pos h] at hs
    have two : (2 : Fl) = fin 2 := by simp
    have sq : ∀ (X : Fl) (x : ℝ), |x| ≤ M → (X = fin x ∨ X = rnd x) → RelErr (powf X 2) (x ^ 2) 4.2 (1 / 2 ^ 76) := fun X x h hX => by
      rcases hX with rfl | rfl
      · obtain ⟨r, e, r0, n⟩ := SquareNear.square_near x (h.trans (by linarith [show (255 : ℝ) ≤ 2 ^ 20 by norm_num]))
        refine ⟨r, by rw [two, e], r0, n.trans ?_⟩
        have := sq_nonneg x
        norm_num
        linarith
      · obtain ⟨r, e, r0, n⟩ := powf_rnd (r := x) (h.trans (by linarith [show (255 : ℝ) ≤ 2 ^ 20 by norm_num]))
        exact ⟨r, e, r0, n.trans (le_of_eq (by ring))⟩
    obtain ⟨r, e, r0, n⟩ := quad2_near h1 h2 (hx.trans hM) (hy.trans hM) (sq X x hx hX) (sq Y y hy hY)
    refine ⟨r, e, n.trans ?_⟩
    rw [abs_of_nonneg (Real.sqrt_nonneg _)] at hs
    norm_num at hs ⊢
    linarith
  · have near : ∀ (X : Fl) (x : ℝ), |x| ≤ M → (X = fin x ∨ X = rnd x) → Near X x (M / 2 ^ 23 + 1 / 2 ^ 100) := fun X x h hX => by
      rcases hX with rfl | rfl
      · exact (near_fin x).weaken (by positivity)
      · obtain ⟨r, e, n⟩ := FineError.rnd_near x (h.trans (by linarith [show (255 : ℝ) ≤ 2 ^ 100 by norm_num]))
        exact ⟨r, e, n.trans (by gcongr)⟩
    refine (lin2_near h1 h2 (by linarith) hM hx hy (near X x hx hX) (near Y y hy hY)).weaken ?_
    norm_num
    linarith

theorem weighted_bytes (t : ColorType) (w1 w2 x y : ℝ) : weighted t w1 w2 (x * 255) (y * 255) = weighted t w1 w2 x y * 255 := by
  unfold weighted
  split
  · rw [show w1 * (x * 255) ^ 2 + w2 * (y * 255) ^ 2 = (w1 * x ^ 2 + w2 * y ^ 2) * 255 ^ 2 by ring, Real.sqrt_mul' _ (by norm_num), Real.sqrt_sq (by norm_num)]
  · ring

end
end Calc

section
variable [FloatModel] [FineError] [SquareNear] [IntExact]

/-- C181: in single precision every channel of a weighted sum is within two millionths of the range of the class of the value of C115, and never outside the range; the opacity is within four millionths. -/
theorem C181_sum (t : ColorType) (ht : Flat t) (a b : Color) (ha : Proper t a) (hb : Proper t b) (w1 w2 : ℝ) (h1 : 0 ≤ w1 ∧ w1 ≤ 1) (h2 : 0 ≤ w2 ∧ w2 ≤ 1) (ia : Bool) (wl : World) :
    ∃ r, Yields (addOf t (fin w1) (fin w2) ia) wl a b r ∧ IsColor t r ∧ r.space = a.space ∧
      (∀ i < Color.count t, ∃ y : ℝ, r.comps[i]? = some (fin y) ∧ (setterRange t i).1 ≤ y ∧ y ≤ (setterRange t i).2 ∧
        |y - within t i (weighted t w1 w2 (chan a i) (chan b i))| ≤ 2 * span t / 10 ^ 6) ∧
      ∃ o : ℝ, r.malpha = fin o ∧ (ia = false → |o - opac a| ≤ 4 / 10 ^ 6) ∧ (ia = true → EightBit t → |o - max 0 (min 1 (weighted t w1 w2 (opac a) (opac b)))| ≤ 4 / 10 ^ 6) ∧
        (ia = true → ¬ EightBit t → |o - weighted t w1 w2 (opac a) (opac b)| ≤ 4 / 10 ^ 6) := by
  have hspan := span_size ht
  have hE : EightBit t ↔ Color.scalesAlpha t = true := by cases t <;> simp [EightBit, Color.scalesAlpha]
  have hcomb : ∀ i, ∃ y : ℝ, i < Color.count t → combF t (fin w1) (fin w2) (fin (chan a i)) (fin (chan b i)) = fin y ∧ |y - weighted t w1 w2 (chan a i) (chan b i)| ≤ 2 * span t / 10 ^ 6 := fun i => by
    by_cases hi : i < Color.count t
    · obtain ⟨y, e, n⟩ := comb2_near t h1 h2 hspan.1 hspan.2 (chan_size ha hi) (chan_size hb hi) (Or.inl rfl) (Or.inl rfl)
      exact ⟨y, fun _ => ⟨e, n⟩⟩
    · exact ⟨0, fun h => absurd h hi⟩
  choose g hg using hcomb
  have hadd := addVal_flat ht ha hb (fin w1) (fin w2) ia g (fun i hi => (hg i hi).1)
  have ho : addOf t (fin w1) (fin w2) ia = addOwn t (fin w1) (fin w2) ia := by rcases ht with rfl | rfl | rfl | rfl | rfl | rfl | rfl | rfl <;> rfl
  have hy := addOwn_yields (w := wl) (pass_of ⟨w1, rfl, h1⟩) (pass_of ⟨w2, rfl, h2⟩) hadd
  rw [← ho] at hy
  refine ⟨_, hy, ⟨rfl, rfl, by simp, rfl, rfl⟩, rfl, fun i hi => ?_, ?_⟩
  · simp only [within_eq]
    exact ⟨within t i (g i), by simp [hi], (within_mem ha hi _).1, (within_mem ha hi _).2, (within_close t i _ _).trans (hg i hi).2⟩
  · have oa := ha.opac_range
    have ob := hb.opac_range
    by_cases hs : Color.scalesAlpha t = true
    · have al : ∀ c, Proper t c → c.alpha = rnd (opac c * 255) := fun c hc => by rw [Color.alpha, hc.col.cls, if_pos hs, hc.opac_eq, lit_def, fin_mul]
      have sz : ∀ c, Proper t c → |opac c * 255| ≤ 255 := fun c hc => by
        have := hc.opac_range
        rw [abs_le]; constructor <;> linarith
      simp only [if_pos hs]
      cases ia with
      | true =>
        have hn := comb2_near t h1 h2 (by norm_num) le_rfl (sz a ha) (sz b hb) (Or.inr rfl) (Or.inr rfl)
        rw [weighted_bytes] at hn
        obtain ⟨o, e, n⟩ := scaled_byte (e := 2 / 10 ^ 6) (by norm_num) (hn.weaken (by norm_num))
        refine ⟨o, ?_, by simp, fun _ _ => n.trans (by norm_num), fun _ h => absurd (hE.mpr hs) h⟩
        simpa only [alphaOf, if_true, al a ha, al b hb] using e
      | false =>
        obtain ⟨y, ey, n⟩ := FineError.rnd_near (opac a * 255) ((sz a ha).trans (by norm_num))
        obtain ⟨o, e, n⟩ := scaled_byte (Z := rnd (opac a * 255)) (r := opac a) (e := 2 / 10 ^ 6) (by norm_num) ⟨y, ey, n.trans (by have := sz a ha; norm_num at this ⊢; linarith)⟩
        rw [min_eq_right oa.2, max_eq_right oa.1] at n
        refine ⟨o, ?_, fun _ => n.trans (by norm_num), by simp, by simp⟩
        simpa only [alphaOf, Bool.false_eq_true, if_false, al a ha] using e
    · have al : ∀ c, Proper t c → c.alpha = fin (opac c) := fun c hc => by rw [Color.alpha, hc.col.cls, if_neg hs, hc.opac_eq]
      simp only [if_neg hs]
      cases ia with
      | true =>
        obtain ⟨o, e, n⟩ := comb2_near t (M := 1) h1 h2 le_rfl (by norm_num) (by rw [abs_of_nonneg oa.1]; exact oa.2) (by rw [abs_of_nonneg ob.1]; exact ob.2) (Or.inl rfl) (Or.inl rfl)
        refine ⟨o, ?_, by simp, fun _ h => absurd (hE.mp h) hs, fun _ _ => n.trans (by norm_num)⟩
        simpa only [alphaOf, if_true, al a ha, al b hb] using e
      | false =>
        refine ⟨opac a, ?_, fun _ => by rw [sub_self, abs_zero]; norm_num, by simp, by simp⟩
        simp only [alphaOf, Bool.false_eq_true, if_false, al a ha]

omit [SquareNear] in
/-- C181: in single precision every channel of a weighted difference is within one millionth of the range of the class of the value of C116, and never outside the range; the opacity is within four
millionths. -/
theorem C181_difference (t : ColorType) (ht : Flat t) (a b : Color) (ha : Proper t a) (hb : Proper t b) (w : ℝ) (h0 : 0 ≤ w) (h1 : w ≤ 1) (ia : Bool) (wl : World) :
    ∃ r, Yields (subOf t (fin w) ia) wl a b r ∧ IsColor t r ∧ r.space = a.space ∧
      (∀ i < Color.count t, ∃ y : ℝ, r.comps[i]? = some (fin y) ∧ (setterRange t i).1 ≤ y ∧ y ≤ (setterRange t i).2 ∧ |y - within t i (chan a i - w * chan b i)| ≤ span t / 10 ^ 6) ∧
      ∃ o : ℝ, r.malpha = fin o ∧ (ia = false → |o - opac a| ≤ 4 / 10 ^ 6) ∧ (ia = true → EightBit t → |o - max 0 (min 1 (opac a - w * opac b))| ≤ 4 / 10 ^ 6) ∧
        (ia = true → ¬ EightBit t → |o - (opac a - w * opac b)| ≤ 4 / 10 ^ 6) := by
  have hspan := span_size ht
  have hE : EightBit t ↔ Color.scalesAlpha t = true := by cases t <;> simp [EightBit, Color.scalesAlpha]
  have near0 : ∀ (M : ℝ), 0 ≤ M → ∀ x : ℝ, Near (fin x) x (M / 2 ^ 23 + 1 / 2 ^ 100) := fun M h x => (near_fin x).weaken (by positivity)
  have hcomb : ∀ i, ∃ y : ℝ, i < Color.count t → minus (fin w) (fin (chan a i)) (fin (chan b i)) = fin y ∧ |y - (chan a i - w * chan b i)| ≤ span t / 10 ^ 6 := fun i => by
    by_cases hi : i < Color.count t
    · have p : (0 : ℝ) ≤ span t := by linarith [hspan.1]
      obtain ⟨y, e, n⟩ := minus_near h0 h1 p hspan.2 (chan_size ha hi) (chan_size hb hi) (near0 _ p _) (near0 _ p _)
      refine ⟨y, fun _ => ⟨e, n.trans ?_⟩⟩
      have := hspan.1
      norm_num at this ⊢
      linarith
    · exact ⟨0, fun h => absurd h hi⟩
  choose g hg using hcomb
  have hsub := subVal_flat ht ha hb (fin w) ia g (fun i hi => (hg i hi).1)
  have ho : subOf t (fin w) ia = subOwn t (fin w) ia := by rcases ht with rfl | rfl | rfl | rfl | rfl | rfl | rfl | rfl <;> rfl
  have hy := subOwn_yields (w := wl) (pass_of ⟨w, rfl, h0, h1⟩) hsub
  rw [← ho] at hy
  refine ⟨_, hy, ⟨rfl, rfl, by simp, rfl, rfl⟩, rfl, fun i hi => ?_, ?_⟩
  · exact ⟨within t i (g i), by simp [hi], (within_mem ha hi _).1, (within_mem ha hi _).2, (within_close t i _ _).trans (hg i hi).2⟩
  · have oa := ha.opac_range
    have ob := hb.opac_range
    have hd : |opac a - w * opac b| ≤ 2 := by
      have a2 : w * opac b ≤ 1 * 1 := by gcongr; exact ob.1; exact ob.2
      have a0 : 0 ≤ w * opac b := mul_nonneg h0 ob.1
      rw [abs_le]; constructor <;> linarith
    by_cases hs : Color.scalesAlpha t = true
    · have al : ∀ c, Proper t c → c.alpha = rnd (opac c * 255) := fun c hc => by rw [Color.alpha, hc.col.cls, if_pos hs, hc.opac_eq, lit_def, fin_mul]
      have sz : ∀ c, Proper t c → |opac c * 255| ≤ 255 := fun c hc => by
        have := hc.opac_range
        rw [abs_le]; constructor <;> linarith
      have near : ∀ x : ℝ, |x| ≤ 255 → Near (rnd x) x (255 / 2 ^ 23 + 1 / 2 ^ 100) := fun x h => by
        obtain ⟨r, e, n⟩ := FineError.rnd_near x (h.trans (by norm_num))
        exact ⟨r, e, n.trans (by gcongr)⟩
      simp only [if_pos hs]
      cases ia with
      | true =>
        have hn := minus_near h0 h1 (by norm_num) le_rfl (sz a ha) (sz b hb) (near _ (sz a ha)) (near _ (sz b hb))
        rw [show opac a * 255 - w * (opac b * 255) = (opac a - w * opac b) * 255 by ring] at hn
        obtain ⟨o, e, n⟩ := scaled_wide (e := 2 / 10 ^ 6) hd (by norm_num) (hn.weaken (by norm_num))
        refine ⟨o, ?_, by simp, fun _ _ => n.trans (by norm_num), fun _ h => absurd (hE.mpr hs) h⟩
        simpa only [alphaOf, if_true, al a ha, al b hb] using e
      | false =>
        obtain ⟨o, e, n⟩ := scaled_wide (r := opac a) (e := 2 / 10 ^ 6) (by rw [abs_of_nonneg oa.1]; linarith [oa.2]) (by norm_num) ((near _ (sz a ha)).weaken (by norm_num))
        rw [min_eq_right oa.2, max_eq_right oa.1] at n
        refine ⟨o, ?_, fun _ => n.trans (by norm_num), by simp, by simp⟩
        simpa only [alphaOf, Bool.false_eq_true, if_false, al a ha] using e
    · have al : ∀ c, Proper t c → c.alpha = fin (opac c) := fun c hc => by rw [Color.alpha, hc.col.cls, if_neg hs, hc.opac_eq]
      simp only [if_neg hs]
      cases ia with
      | true =>
        obtain ⟨o, e, n⟩ := minus_near (M := 1) h0 h1 (by norm_num) (by norm_num) (by rw [abs_of_nonneg oa.1]; exact oa.2) (by rw [abs_of_nonneg ob.1]; exact ob.2)
          (near0 1 (by norm_num) (opac a)) (near0 1 (by norm_num) (opac b))
        refine ⟨o, ?_, by simp, fun _ h => absurd (hE.mp h) hs, fun _ _ => n.trans (by norm_num)⟩
        simpa only [alphaOf, if_true, al a ha, al b hb] using e
      | false =>
        refine ⟨opac a, ?_, fun _ => by rw [sub_self, abs_zero]; norm_num, by simp, by simp⟩
        simp only [alphaOf, Bool.false_eq_true, if_false, al a ha]

end

section
variable [FloatModel] [IntExact]

theorem Calc.whole {n : ℤ} (h : |n| ≤ 1000) : rnd (n : ℝ) = fin n := IntExact.rnd_int n (h.trans (by norm_num))

theorem Calc.minus_byte {V V' : ℕ} (h : V ≤ 255) (h' : V' ≤ 255) : Color.clamp (minus (fin 1) (fin V) (fin V')) 255 0 = fin ((V - V' : ℕ) : ℝ) := by
  have e1 : rnd (V' : ℝ) = fin V' := by
    have := Calc.whole (n := V') (by rw [abs_le]; constructor <;> omega)
    exact_mod_cast this
  have e2 : rnd ((V : ℝ) - V') = fin (V - V') := by
    have := Calc.whole (n := (V : ℤ) - V') (by rw [abs_le]; constructor <;> omega)
    push_cast at this
    exact this
  have b1 : (V : ℝ) ≤ 255 := by exact_mod_cast h
  have b0 : (0 : ℝ) ≤ V' := Nat.cast_nonneg _
  rw [minus, fin_mul, one_mul, e1, fin_sub, e2, lit_def, zero_def, Color.clamp_fin, min_eq_left (by linarith)]
  rcases le_total V' V with hl | hl
  · rw [Nat.cast_sub hl, max_eq_left (by have : (V' : ℝ) ≤ V := by exact_mod_cast hl
                                         linarith)]
  · rw [Nat.sub_eq_zero_of_le hl, max_eq_right (by have : (V : ℝ) ≤ V' := by exact_mod_cast hl
                                                   linarith), Nat.cast_zero]

theorem Calc.plus_byte {V V' : ℕ} (h : V ≤ 255) (h' : V' ≤ 255) : byteLimit (linear (fin 1) (fin 1) (fin V) (fin V')) = fin ((min (V + V') 255 : ℕ) : ℝ) := by
  have e1 : ∀ n : ℕ, n ≤ 1000 → rnd (n : ℝ) = fin n := fun n hn => by
    have := Calc.whole (n := n) (by rw [abs_le]; constructor <;> omega)
    exact_mod_cast this
  have e2 := e1 (V + V') (by omega)
  push_cast at e2
  rw [linear, fin_mul, fin_mul, one_mul, one_mul, e1 V (by omega), e1 V' (by omega), fin_add, e2, byte_fin, max_eq_left (by positivity)]
  push_cast
  rfl

/-- C181: the difference of two 8-bit colours is exact in every arithmetic that is exact on integers: the channels are whole numbers, the differences or 0. -/
theorem C181_bytes (a b : Color) (R G B R' G' B' : ℕ) (ha : IsBytes a R G B) (hb : IsBytes b R' G' B') (ia : Bool) (wl : World) :
    ∃ r, Yields (subOf .rgbTrue (fin 1) ia) wl a b r ∧ IsBytes r (R - R') (G - G') (B - B') := by
  have hz := zip_all (minus (fin 1)) ha.col hb.col
  rw [ha.comps, hb.comps] at hz
  simp only [Color.count, List.zipWith_cons_cons, List.zipWith_nil_left] at hz
  have e : subVal .rgbTrue (fin 1) ia a b = ok (Color.mkRgbTrue (minus (fin 1) (fin R) (fin R')) (minus (fin 1) (fin G) (fin G')) (minus (fin 1) (fin B) (fin B')) (alphaOf (minus (fin 1)) ia a b) a.space) := by
    simp only [subVal, hz, ok_bind, Color.construct_rgbTrue]
  refine ⟨_, subOwn_yields (pass_of ⟨1, rfl, by norm_num, le_rfl⟩) e, ⟨rfl, rfl, rfl, rfl, rfl⟩, ?_, (Nat.sub_le _ _).trans ha.red, (Nat.sub_le _ _).trans ha.green, (Nat.sub_le _ _).trans ha.blue⟩
  simp only [Color.mkRgbTrue, Calc.minus_byte ha.red hb.red, Calc.minus_byte ha.green hb.green, Calc.minus_byte ha.blue hb.blue]

/-- C181: sums and differences of 8-bit greys are exact in every arithmetic that is exact on integers; a sum above 255 becomes 255, a difference below 0 becomes 0. -/
theorem C181_greys (a b : Color) (V V' : ℕ) (ha : IsGreyByte a V) (hb : IsGreyByte b V') (ia : Bool) (wl : World) :
    (∃ r, Yields (addOf .greyTrue (fin 1) (fin 1) ia) wl a b r ∧ IsGreyByte r (min (V + V') 255)) ∧ ∃ r, Yields (subOf .greyTrue (fin 1) ia) wl a b r ∧ IsGreyByte r (V - V') := by
  have one : Pass (fin 1) := pass_of ⟨1, rfl, by norm_num, le_rfl⟩
  constructor
  · have hz := zip_all (linear (fin 1) (fin 1)) ha.col hb.col
    rw [ha.comps, hb.comps] at hz
    simp only [Color.count, List.zipWith_cons_cons, List.zipWith_nil_left] at hz
    have e : addVal .greyTrue (fin 1) (fin 1) ia a b = ok (Color.mkGreyTrue (fin ((min (V + V') 255 : ℕ) : ℝ)) (byteLimit (alphaOf (linear (fin 1) (fin 1)) ia a b)) a.space) := by
      simp only [addVal, hz, ok_bind, List.map_cons, List.map_nil, Calc.plus_byte ha.level hb.level, Color.construct_greyTrue]
    refine ⟨_, addOwn_yields one one e, ⟨rfl, rfl, rfl, rfl, rfl⟩, ?_, min_le_right _ _⟩
    have b1 : ((min (V + V') 255 : ℕ) : ℝ) ≤ 255 := by exact_mod_cast min_le_right (V + V') 255
    simp only [Color.mkGreyTrue, lit_def, zero_def, Color.clamp_fin, min_eq_left b1, max_eq_left (Nat.cast_nonneg (min (V + V') 255) : (0 : ℝ) ≤ _)]
  · have hz := zip_all (minus (fin 1)) ha.col hb.col
    rw [ha.comps, hb.comps] at hz
    simp only [Color.count, List.zipWith_cons_cons, List.zipWith_nil_left] at hz
    have e : subVal .greyTrue (fin 1) ia a b = ok (Color.mkGreyTrue (minus (fin 1) (fin V) (fin V')) (alphaOf (minus (fin 1)) ia a b) a.space) := by
      simp only [subVal, hz, ok_bind, Color.construct_greyTrue]
    refine ⟨_, subOwn_yields one e, ⟨rfl, rfl, rfl, rfl, rfl⟩, ?_, (Nat.sub_le _ _).trans ha.level⟩
    simp only [Color.mkGreyTrue, Calc.minus_byte ha.level hb.level]

end

/-- The 8-bit colour with the channels `R`, `G` and `B`. -/
theorem CombineSpec.isBytes_of (R G B : ℕ) (al : Fl) (r : R ≤ 255) (g : G ≤ 255) (b : B ≤ 255) : IsBytes ⟨.rgbTrue, .rgbTrue, [fin R, fin G, fin B], al, 255, 0, none⟩ R G B :=
  ⟨⟨rfl, rfl, rfl, rfl, rfl⟩, rfl, r, g, b⟩

/-- Case of `C181_bytes`: (200, 100, 7) - (50, 100, 90) in single precision. -/
example (wl : World) : letI := Binary32.binary32
    ∃ a b r : Color, IsBytes a 200 100 7 ∧ IsBytes b 50 100 90 ∧ Yields (subOf .rgbTrue (fin 1) true) wl a b r ∧ IsBytes r 150 0 0 := by
  letI := Binary32.binary32
  haveI := Binary32.binary32_int
  have ha := isBytes_of 200 100 7 (fin 1) (by norm_num) (by norm_num) (by norm_num)
  have hb := isBytes_of 50 100 90 (fin 1) (by norm_num) (by norm_num) (by norm_num)
  obtain ⟨r, h1, h2⟩ := C181_bytes _ _ _ _ _ _ _ _ ha hb true wl
  exact ⟨_, _, r, ha, hb, h1, h2⟩

/-- Case of `C181_greys`: 200 + 100 and 200 - 100 in single precision. -/
example (wl : World) : letI := Binary32.binary32
    ∃ a b r s : Color, IsGreyByte a 200 ∧ IsGreyByte b 100 ∧ Yields (addOf .greyTrue (fin 1) (fin 1) true) wl a b r ∧ IsGreyByte r 255 ∧ Yields (subOf .greyTrue (fin 1) true) wl a b s ∧ IsGreyByte s 100 := by
  letI := Binary32.binary32
  haveI := Binary32.binary32_int
  have hg : ∀ V : ℕ, V ≤ 255 → IsGreyByte ⟨.greyTrue, .greyTrue, [fin V], fin 1, 255, 0, none⟩ V := fun V h => ⟨⟨rfl, rfl, rfl, rfl, rfl⟩, rfl, h⟩
  obtain ⟨⟨r, h1, h2⟩, s, h3, h4⟩ := C181_greys _ _ _ _ (hg 200 (by norm_num)) (hg 100 (by norm_num)) true wl
  exact ⟨_, _, r, s, hg 200 (by norm_num), hg 100 (by norm_num), h1, h2, h3, h4⟩

/-- Case of `C181_sum` and `C181_difference`: the RGB_DEEP colours (1/2, 1/2, 1/2) and (1/4, 1/4, 1/4) in single precision. -/
example (wl : World) : letI := Binary32.binary32
    ∃ a b r s : Color, Proper .rgbDeep a ∧ Proper .rgbDeep b ∧ Yields (addOf .rgbDeep (fin 1) (fin 1) false) wl a b r ∧ Yields (subOf .rgbDeep (fin (1 / 3)) false) wl a b s ∧
      (∃ y : ℝ, r.comps[0]? = some (fin y) ∧ |y - within .rgbDeep 0 (weighted .rgbDeep 1 1 (1 / 2) (1 / 4))| ≤ 2 / 10 ^ 6) ∧
      ∃ y : ℝ, s.comps[0]? = some (fin y) ∧ |y - within .rgbDeep 0 (1 / 2 - 1 / 3 * (1 / 4))| ≤ 1 / 10 ^ 6 := by
  letI := Binary32.binary32
  haveI := Binary32.binary32_int
  haveI := Binary32.binary32_square
  haveI := Binary32.binary32_fine
  have proper : ∀ y : ℝ, 0 ≤ y → y ≤ 1 → Proper .rgbDeep ⟨.rgbDeep, .rgbDeep, [fin y, fin y, fin y], fin 1, 1, 0, none⟩ := fun y h0 h1 =>
    ⟨⟨rfl, rfl, rfl, rfl, rfl⟩, fun i hi => by
      have hi' : i < 3 := by simpa using hi
      refine ⟨y, ?_, by simpa [setterRange, channelRange] using h0, by simpa [setterRange, channelRange] using h1⟩
      rcases i with _ | _ | _ | i <;> first | rfl | omega, ⟨1, rfl, by norm_num, le_rfl⟩⟩
  have pa := proper (1 / 2) (by norm_num) (by norm_num)
  have pb := proper (1 / 4) (by norm_num) (by norm_num)
  obtain ⟨r, r1, -, -, r2, -⟩ := C181_sum .rgbDeep (by simp [Flat]) _ _ pa pb 1 1 (by norm_num) (by norm_num) false wl
  obtain ⟨s, s1, -, -, s2, -⟩ := C181_difference .rgbDeep (by simp [Flat]) _ _ pa pb (1 / 3) (by norm_num) (by norm_num) false wl
  obtain ⟨y, e, -, -, n⟩ := r2 0 (by simp [Color.count])
  obtain ⟨z, f, -, -, m⟩ := s2 0 (by simp [Color.count])
  exact ⟨_, _, r, s, pa, pb, r1, s1, ⟨y, e, n.trans (by norm_num [span])⟩, z, f, m.trans (by norm_num [span])⟩

import Verif.FineError
import Verif.Props.Single

/-!
# The last degree of the hue circle in single precision (C126, C127)

Which slightly bluish reds survive HSV and HSL: of the 8-bit colours that `C126_bytes_partial` and `C126_bytes_violated` leave open only those with `R - G = 60 (B - G) + 30` stay open here, with the
precision of `float`.
-/

open Outcome Fl Prog ObjectSpec ConvSpec Hue

namespace GapFine

section
variable [FloatModel] [FineError]

theorem round {r : ℝ} (h : |r| ≤ 1000) : ∃ p, rnd r = fin p ∧ |p - r| ≤ |r| * 1.2e-7 + 1e-25 := by
  obtain ⟨p, e, hp⟩ := FineError.rnd_near r (h.trans (by norm_num))
  refine ⟨p, e, hp.trans ?_⟩
  have hr := abs_nonneg r
  generalize |r| = x at hr
  norm_num at *; linarith

theorem round0 {r : ℝ} (h0 : 0 ≤ r) (h1 : r ≤ 1000) : ∃ p, rnd r = fin p ∧ |p - r| ≤ r * 1.2e-7 + 1e-25 := by
  have := round (r := r) (by rw [abs_of_nonneg h0]; exact h1)
  rwa [abs_of_nonneg h0] at this

/-- Rounding a number known up to an error. -/
theorem round_of {s r M ε : ℝ} (h : |s - r| ≤ ε) (hr : |r| ≤ M) (hM : M + ε ≤ 1000) : ∃ p, rnd s = fin p ∧ |p - r| ≤ ε + (M + ε) * 1.2e-7 + 1e-25 := by
  have hs : |s| ≤ M + ε := by
    have := abs_add_le (s - r) r; rw [sub_add_cancel] at this; linarith
  obtain ⟨p, e, hp⟩ := round (hs.trans hM)
  refine ⟨p, e, ?_⟩
  have := abs_sub_le p s r
  have : |s| * 1.2e-7 ≤ (M + ε) * 1.2e-7 := by gcongr
  linarith

/-- The colours looked at: red is largest, green smallest, and the hue is well between 359 and 360 degrees. -/
structure Window (r g b : ℝ) : Prop where
  g0 : 0 ≤ g
  r1 : r ≤ 1
  wide : 0.3 ≤ r - g
  low : 0.5 * (r - g) ≤ 60 * (b - g)
  high : 60 * (b - g) ≤ 0.9 * (r - g)

/-- Their hue is stored as 359 degrees. -/
theorem hue_359 {r g b : ℝ} (h : Window r g b) :
    Color.clamp (Color.hueReduce (Leaf.hueFromRgb (fin r) (fin g) (fin b) (fin r) (fin r - fin g))) 359 0 = fin 359 := by
  obtain ⟨g0, r1, wide, low, high⟩ := h
  set δ := r - g with hδ
  have δ1 : δ ≤ 1 := by linarith
  have δp : 0 < δ := by norm_num at *; linarith
  obtain ⟨d, ed, nd⟩ := diff_near (x := r) (y := g) (by rw [← hδ, abs_of_pos δp]; exact δ1)
  have hgb : |g - b| ≤ δ := by rw [abs_le]; constructor <;> (norm_num at *; linarith)
  obtain ⟨p, ep, np⟩ := diff_near (hgb.trans δ1)
  obtain ⟨q, eq, nq, bq, -⟩ := quot_near hgb np nd (by norm_num at *; linarith) δ1
  obtain ⟨h, eh, nh, -⟩ := sixty (bq.trans (by norm_num))
  have bq' := abs_le.mp bq
  have hcode : Leaf.hueFromRgb (fin r) (fin g) (fin b) (fin r) (fin r - fin g) = fin h := by
    simp only [Leaf.hueFromRgb, feq_fin, if_true, lit_def]
    rw [ed, ep, eq, fmod_lt (by norm_num) (by linarith) (by linarith), eh]
  have nh2 : |h - 60 * q| ≤ 7 / 100000 := by linarith
  have nh' := abs_le.mp nh2
  have nq2 : |q - (g - b) / δ| ≤ 1 / 10000 := by
    by_contra hh
    push Not at hh
    have : 1 / 10000 * 0.3 < |q - (g - b) / δ| * δ := mul_lt_mul hh wide (by norm_num) (abs_nonneg _)
    norm_num at *; linarith
  have nq' := abs_le.mp nq2
  have u0 : 60 * ((g - b) / δ) ≤ -0.5 := by
    rw [mul_div_assoc', div_le_iff₀ δp]; linarith
  have u1 : -0.9 ≤ 60 * ((g - b) / δ) := by
    rw [mul_div_assoc', le_div_iff₀ δp]; linarith
  have hneg : h < 0 := by norm_num at *; linarith
  have hlow : -0.95 ≤ h := by norm_num at *; linarith
  obtain ⟨h', eh', nh''⟩ := near_rnd (r := h + 360) (by rw [abs_of_pos (by norm_num at *; linarith)]; linarith)
  rw [abs_of_pos (a := h + 360) (by norm_num at *; linarith)] at nh''
  have nh4 := abs_le.mp nh''
  have hge : 359 ≤ h' := by norm_num at *; linarith
  rw [hcode]
  unfold Color.hueReduce
  simp only [lit_def, zero_def]
  rw [fmod_lt (by norm_num) (by norm_num at *; linarith) (by norm_num at *; linarith)]
  simp only [fin_lt, if_pos hneg]
  rw [fin_add, eh', Color.clamp_fin, min_eq_right hge, max_eq_left (by norm_num)]

/-- Saturation times value. -/
theorem chroma_fine {r g : ℝ} (g0 : 0 ≤ g) (r1 : r ≤ 1) (wide : 0.3 ≤ r - g) :
    ∃ S, Color.clamp ((fin r - fin g) / fin r) 1 0 = fin S ∧ 0 ≤ S ∧ S ≤ 1 ∧ |r * S - (r - g)| ≤ 3e-7 := by
  have r0 : 0 < r := by norm_num at *; linarith
  have δ0 : 0 ≤ r - g := by norm_num at *; linarith
  obtain ⟨d, ed, nd⟩ := round0 (r := r - g) δ0 (by linarith)
  have nd' := abs_le.mp nd
  have d0 : 0 ≤ d := by norm_num at *; linarith
  have q0 : 0 ≤ d / r := by positivity
  have q1 : d / r ≤ 1.000001 := by rw [div_le_iff₀ r0]; norm_num at *; linarith
  obtain ⟨q, eq, nq⟩ := round0 (r := d / r) q0 (by norm_num at *; linarith)
  have i0 : 0 ≤ (r - g) / r := by positivity
  have i1 : (r - g) / r ≤ 1 := by rw [div_le_one r0]; linarith
  have hq : |q - (r - g) / r| * r ≤ 3e-7 := by
    have e1 : |d / r - (r - g) / r| * r = |d - (r - g)| := by
      rw [← sub_div, abs_div, abs_of_pos r0, div_mul_cancel₀ _ r0.ne']
    have e2 : |q - d / r| * r ≤ (1.000001 * 1.2e-7 + 1e-25) * 1 := by
      refine mul_le_mul (nq.trans (by gcongr)) r1 r0.le (by norm_num)
    have := abs_sub_le q (d / r) ((r - g) / r)
    have : |q - (r - g) / r| * r ≤ (|q - d / r| + |d / r - (r - g) / r|) * r := by gcongr
    rw [add_mul, e1] at this
    norm_num at *; linarith
  obtain ⟨S, eS, nS⟩ := (Near.clamp01 (x := fin q) (a := (r - g) / r) (ε := |q - (r - g) / r|) ⟨q, rfl, le_rfl⟩ i0 i1)
  have rng := Color.clamp_inRange (fin q) (mx := 1) (mn := 0) (by norm_num)
  simp only [one_def, zero_def] at eS
  rw [eS] at rng
  simp only [inRange_fin] at rng
  refine ⟨S, ?_, rng.1, rng.2, ?_⟩
  · rw [fin_sub, ed, fin_div _ _ r0.ne', eq]
    simp only [one_def, zero_def]
    exact eS
  · have : r * S - (r - g) = (S - (r - g) / r) * r := by field_simp
    rw [this, abs_mul, abs_of_pos r0]
    exact le_trans (by gcongr) hq

/-- The blue of the HSV hue 359. -/
theorem hsv_blue {S v δ : ℝ} (S0 : 0 ≤ S) (S1 : S ≤ 1) (v0 : 0 ≤ v) (v1 : v ≤ 1) (hδ : |v * S - δ| ≤ 3e-7) (δ0 : 0 ≤ δ) (δ1 : δ ≤ 1) :
    Near (Leaf.hsvToRgb (fin 359) (fin S) (fin v) (fin 1)) (v - δ * (59 / 60)) 2.5e-6 := by
  simp only [Leaf.hsvToRgb, lit_def, zero_def, one_def]
  obtain ⟨e, he, ne⟩ := round0 (r := 359 / 60) (by norm_num) (by norm_num)
  obtain ⟨t, ht, nt⟩ := round_of (s := 1 + e) (r := 1 + 359 / 60) (M := 7) (ε := 7.2e-7) (by rw [add_sub_add_left_eq_sub]; exact ne.trans (by norm_num))
    (by rw [abs_of_nonneg (by norm_num)]; norm_num) (by norm_num)
  have nt' := abs_le.mp nt
  have t6 : 6 ≤ t := by norm_num at *; linarith
  rw [fin_div _ _ (by norm_num), he, fin_add, ht, fmod_wrap (by norm_num) (by linarith) (by norm_num at *; linarith)]
  have hw : wrap 6 t = t - 6 := by unfold wrap; rw [if_neg (not_lt.mpr t6)]
  rw [hw]
  obtain ⟨k, hk, nk⟩ := round0 (r := 4 - (t - 6)) (by norm_num at *; linarith) (by norm_num at *; linarith)
  have nk' := abs_le.mp nk
  rw [fin_sub, hk, fmin_fin, fmin_fin, fmax_fin, min_eq_right (a := k) (by norm_num at *; linarith), min_eq_left (by norm_num at *; linarith), max_eq_left (by norm_num at *; linarith)]
  -- the products
  obtain ⟨a, ha, na⟩ := round_of (s := v * S) (r := δ) (M := 1) hδ (by rw [abs_of_nonneg δ0]; exact δ1) (by norm_num)
  rw [fin_mul, ha]
  have hprod : |a * (t - 6) - δ * (59 / 60)| ≤ 2.02e-6 := by
    rw [show a * (t - 6) - δ * (59 / 60) = (a - δ) * (t - 6) + δ * (t - (1 + 359 / 60)) by ring]
    refine (abs_add_le _ _).trans ?_
    rw [abs_mul, abs_mul, abs_of_nonneg δ0]
    have h1 : |a - δ| * |t - 6| ≤ 4.21e-7 * 0.984 := by
      refine mul_le_mul (na.trans (by norm_num)) ?_ (abs_nonneg _) (by norm_num)
      rw [abs_of_nonneg (by linarith)]; norm_num at *; linarith
    have h2 : δ * |t - (1 + 359 / 60)| ≤ 1 * 1.57e-6 := by
      refine mul_le_mul δ1 (nt.trans (by norm_num)) (abs_nonneg _) (by norm_num)
    norm_num at *; linarith
  have hb0 : 0 ≤ δ * (59 / 60) := by positivity
  have hb1 : δ * (59 / 60) ≤ 1 := by linarith
  obtain ⟨m, hm, nm⟩ := round_of hprod (M := 1) (by rw [abs_of_nonneg hb0]; exact hb1) (by norm_num)
  rw [fin_mul, hm, fin_sub]
  obtain ⟨y, hy, ny⟩ := round_of (s := v - m) (r := v - δ * (59 / 60)) (ε := 2.15e-6) (M := 1) (by
    rw [sub_sub_sub_cancel_left, abs_sub_comm]; refine nm.trans (by norm_num)) (by rw [abs_le]; constructor <;> linarith) (by norm_num)
  exact ⟨y, hy, ny.trans (by norm_num)⟩

set_option maxHeartbeats 1600000 in
/-- Lightness, and saturation times distance to black or white. -/
theorem lchroma_fine {r g : ℝ} (g0 : 0 ≤ g) (r1 : r ≤ 1) (wide : 0.3 ≤ r - g) :
    ∃ S l, fin 0.5 * (fin r + fin g) = fin l ∧ Color.clamp (if feq (fin l) 0 ∨ feq (fin l) 1 then 0 else (fin r - fin g) / (1 - Fl.abs (2 * fin l - 1))) 1 0 = fin S ∧
      0 ≤ S ∧ S ≤ 1 ∧ 0 < l ∧ l < 1 ∧ |l - (r + g) / 2| ≤ 2.5e-7 ∧ |S * min l (1 - l) - (r - g) / 2| ≤ 5e-7 := by
  obtain ⟨t, et, nt⟩ := round0 (r := r + g) (by norm_num at *; linarith) (by norm_num at *; linarith)
  have nt' := abs_le.mp nt
  obtain ⟨l, el, nl⟩ := round0 (r := 0.5 * t) (by norm_num at *; linarith) (by norm_num at *; linarith)
  have nl' := abs_le.mp nl
  have nl2 : |l - (r + g) / 2| ≤ 2.5e-7 := by rw [abs_le]; constructor <;> (norm_num at *; linarith)
  have nl3 := abs_le.mp nl2
  have l0 : 0 < l := by norm_num at *; linarith
  have l1 : l < 1 := by norm_num at *; linarith
  set δ := r - g with hδ
  obtain ⟨d, ed, nd⟩ := round0 (r := r - g) (by norm_num at *; linarith) (by norm_num at *; linarith)
  rw [← hδ] at nd
  have nd2 : |d - δ| ≤ 1.21e-7 := nd.trans (by norm_num at *; linarith)
  have nd' := abs_le.mp nd2
  obtain ⟨μ0, μ1⟩ := lmin_range l0.le l1.le
  have μδ : δ / 2 - 2.5e-7 ≤ min l (1 - l) := le_min (by norm_num at *; linarith) (by norm_num at *; linarith)
  set μ := min l (1 - l) with hμ
  have habs : 1 - |2 * l - 1| = 2 * μ := by
    rw [hμ]
    rcases le_total l (1 / 2) with h | h
    · rw [abs_of_nonpos (by linarith), min_eq_left (by linarith)]; ring
    · rw [abs_of_nonneg (by linarith), min_eq_right (by linarith)]; ring
  have hden : ∃ m, (1 - Fl.abs (2 * fin l - 1) : Fl) = fin m ∧ |m - 2 * μ| ≤ 4.9e-7 := by
    obtain ⟨a, ea, na⟩ := round0 (r := 2 * l) (by linarith) (by linarith)
    obtain ⟨b, eb, nb⟩ := round_of (s := a - 1) (r := 2 * l - 1) (M := 1) (ε := 2.41e-7) (by
      rw [sub_sub_sub_cancel_right]; exact na.trans (by norm_num at *; linarith)) (by rw [abs_le]; constructor <;> linarith) (by norm_num)
    obtain ⟨m, em, nm⟩ := round_of (s := 1 - |b|) (r := 1 - |2 * l - 1|) (M := 1) (ε := 3.62e-7) (by
      rw [sub_sub_sub_cancel_left, abs_sub_comm]; exact (abs_abs_sub_abs_le _ _).trans (nb.trans (by norm_num))) (by rw [habs, abs_of_nonneg (by linarith)]; linarith) (by norm_num)
    refine ⟨m, ?_, ?_⟩
    · simp only [lit_def, one_def]
      rw [fin_mul, ea, fin_sub, eb, abs_fin, fin_sub, em]
    · rw [← habs]; exact nm.trans (by norm_num)
  obtain ⟨m, em, nm⟩ := hden
  have nm' := abs_le.mp nm
  have m0 : 0 < m := by norm_num at *; linarith
  have hmδ : 0.99999 * δ ≤ m := by norm_num at *; linarith
  have q0 : 0 ≤ d / m := div_nonneg (by norm_num at *; linarith) m0.le
  have q1 : d / m ≤ 1.0001 := by rw [div_le_iff₀ m0]; norm_num at *; linarith
  obtain ⟨q, eq, nq⟩ := round0 (r := d / m) q0 (by norm_num at *; linarith)
  have nq2 : |q - d / m| ≤ 1.21e-7 := nq.trans (by norm_num at *; linarith)
  have hq : |q * μ - δ / 2| ≤ 4.5e-7 := by
    have e1 : d / m * μ - δ / 2 = ((d - δ) * (2 * μ) + δ * (2 * μ - m)) / (2 * m) := by field_simp; ring
    have e2 : |d / m * μ - δ / 2| ≤ 3.1e-7 := by
      rw [e1, abs_div, abs_of_pos (by linarith : 0 < 2 * m), div_le_iff₀ (by linarith)]
      have k1 : |(d - δ) * (2 * μ)| ≤ 1.21e-7 * (m + 4.9e-7) := by
        rw [abs_mul, abs_of_nonneg (by linarith : 0 ≤ 2 * μ)]
        exact mul_le_mul nd2 (by linarith) (by linarith) (by norm_num)
      have k2 : |δ * (2 * μ - m)| ≤ δ * 4.9e-7 := by
        rw [abs_mul, abs_of_nonneg (by norm_num at *; linarith : 0 ≤ δ), abs_sub_comm]
        exact mul_le_mul_of_nonneg_left nm (by norm_num at *; linarith)
      have := abs_add_le ((d - δ) * (2 * μ)) (δ * (2 * μ - m))
      norm_num at *; linarith
    have e3 : |(q - d / m) * μ| ≤ 1.21e-7 * (1 / 2) := by
      rw [abs_mul, abs_of_nonneg μ0]; exact mul_le_mul nq2 μ1 μ0 (by norm_num)
    have e4 := abs_add_le ((q - d / m) * μ) (d / m * μ - δ / 2)
    rw [show (q - d / m) * μ + (d / m * μ - δ / 2) = q * μ - δ / 2 by ring] at e4
    norm_num at *; linarith
  have qn : 0 ≤ q := by
    have : rnd (0 : ℝ) ≤ rnd (d / m) := FloatModel.rnd_mono _ _ q0
    rw [FloatModel.rnd_zero, eq] at this; simpa using this
  refine ⟨min q 1, l, by rw [fin_add, et, fin_mul, el], ?_, le_min qn (by norm_num), min_le_right _ _, l0, l1, nl2, ?_⟩
  · rw [if_neg (by rw [zero_def, one_def, feq_fin, feq_fin]; rintro (h | h) <;> linarith), em, fin_sub, ed, fin_div _ _ m0.ne', eq, one_def, zero_def, Color.clamp_fin,
      max_eq_left (le_min qn (by norm_num))]
  · rcases le_total q 1 with h | h
    · rw [min_eq_left h]; exact hq.trans (by norm_num)
    · rw [min_eq_right h, one_mul]
      have : 1 * μ ≤ q * μ := by gcongr
      have hq' := abs_le.mp hq
      rw [abs_le]
      have h45 : (4.5e-7 : ℝ) ≤ 5e-7 ∧ (2.5e-7 : ℝ) ≤ 5e-7 := by norm_num
      constructor <;> linarith [hq'.1, hq'.2, h45.1, h45.2]

set_option maxHeartbeats 1600000 in
/-- The blue of the HSL hue 359. -/
theorem hsl_blue {S l δ ℓ : ℝ} (S0 : 0 ≤ S) (S1 : S ≤ 1) (l0 : 0 < l) (l1 : l < 1) (hl : |l - ℓ| ≤ 2.5e-7) (c0 : 0 ≤ ℓ) (c1 : ℓ ≤ 1)
    (hδ : |S * min l (1 - l) - δ / 2| ≤ 5e-7) (δ0 : 0 ≤ δ) (δ1 : δ ≤ 1) :
    Near (Leaf.hslToRgb (fin 359) (fin S) (fin l) (fin 4)) (ℓ - δ / 2 * (29 / 30)) 3.6e-6 := by
  have hm1 : (-1 : Fl) = fin (-1) := by simp
  simp only [Leaf.hslToRgb, lit_def, one_def, hm1]
  obtain ⟨e, he, ne⟩ := round0 (r := 359 / 30) (by norm_num) (by norm_num)
  obtain ⟨t, ht, nt⟩ := round_of (s := 4 + e) (r := 4 + 359 / 30) (M := 16) (ε := 1.44e-6) (by rw [add_sub_add_left_eq_sub]; exact ne.trans (by norm_num))
    (by rw [abs_of_nonneg (by norm_num)]; norm_num) (by norm_num)
  have nt2 : |t - (4 + 359 / 30)| ≤ 3.37e-6 := nt.trans (by norm_num)
  have nt' := abs_le.mp nt2
  have t12 : 12 ≤ t := by norm_num at *; linarith
  rw [fin_div _ _ (by norm_num), he, fin_add, ht, fmod_wrap (by norm_num) (by linarith) (by norm_num at *; linarith)]
  have hw : wrap 12 t = t - 12 := by unfold wrap; rw [if_neg (not_lt.mpr t12)]
  rw [hw]
  obtain ⟨k, hk, nk⟩ := round0 (r := 9 - (t - 12)) (by norm_num at *; linarith) (by norm_num at *; linarith)
  have nk' := abs_le.mp nk
  obtain ⟨W, eW, nW⟩ := round_of (s := t - 12 - 3) (r := 29 / 30) (M := 1) (ε := 3.37e-6) (by
    rw [show t - 12 - 3 - 29 / 30 = t - (4 + 359 / 30) by ring]; exact nt2) (by rw [abs_of_nonneg (by norm_num)]; norm_num) (by norm_num)
  have nW2 : |W - 29 / 30| ≤ 3.5e-6 := nW.trans (by norm_num)
  have nW' := abs_le.mp nW2
  rw [fin_sub (t - 12) 3, fin_sub 9 (t - 12), hk, eW, neg_fin, fmin_fin, fmin_fin, fmax_fin, min_eq_right (a := k) (by norm_num at *; linarith), min_eq_left (by norm_num at *; linarith), max_eq_left (by norm_num at *; linarith)]
  obtain ⟨n, en, nn⟩ := round0 (r := 1 - l) (by linarith) (by linarith)
  have nn2 : |n - (1 - l)| ≤ 1.21e-7 := nn.trans (by norm_num at *; linarith)
  rw [fin_sub, en, fmin_fin]
  obtain ⟨μ0, μ1⟩ := lmin_range l0.le l1.le
  have hmin : |min l n - min l (1 - l)| ≤ 1.21e-7 :=
    (abs_min_sub_min_le_max _ _ _ _).trans (max_le (by rw [sub_self, abs_zero]; norm_num) nn2)
  have ha1 : |S * min l n - δ / 2| ≤ 6.21e-7 := by
    rw [show S * min l n - δ / 2 = S * (min l n - min l (1 - l)) + (S * min l (1 - l) - δ / 2) by ring]
    refine (abs_add_le _ _).trans ?_
    have : |S * (min l n - min l (1 - l))| ≤ 1 * 1.21e-7 := by
      rw [abs_mul, abs_of_nonneg S0]; exact mul_le_mul S1 hmin (abs_nonneg _) (by norm_num)
    norm_num at *; linarith
  obtain ⟨a, ha, na⟩ := round_of (M := 1 / 2) ha1 (by rw [abs_of_nonneg (by linarith)]; linarith) (by norm_num)
  rw [fin_mul, ha]
  have na2 : |a - δ / 2| ≤ 6.9e-7 := na.trans (by norm_num)
  have hprod : |a * W - δ / 2 * (29 / 30)| ≤ 2.5e-6 := by
    rw [show a * W - δ / 2 * (29 / 30) = (a - δ / 2) * W + δ / 2 * (W - 29 / 30) by ring]
    refine (abs_add_le _ _).trans ?_
    rw [abs_mul, abs_mul, abs_of_nonneg (a := δ / 2) (by linarith)]
    have h1 : |a - δ / 2| * |W| ≤ 6.9e-7 * 0.97 := by
      refine mul_le_mul na2 ?_ (abs_nonneg _) (by norm_num)
      rw [abs_of_nonneg (by norm_num at *; linarith)]; norm_num at *; linarith
    have h2 : δ / 2 * |W - 29 / 30| ≤ 1 / 2 * 3.5e-6 := mul_le_mul (by linarith) nW2 (abs_nonneg _) (by norm_num)
    norm_num at *; linarith
  have hb0 : 0 ≤ δ / 2 * (29 / 30) := by positivity
  have hb1 : δ / 2 * (29 / 30) ≤ 1 / 2 := by linarith
  obtain ⟨m, hm, nm⟩ := round_of hprod (M := 1 / 2) (by rw [abs_of_nonneg hb0]; exact hb1) (by norm_num)
  rw [fin_mul, hm, fin_sub]
  have nm2 : |m - δ / 2 * (29 / 30)| ≤ 2.57e-6 := nm.trans (by norm_num)
  obtain ⟨y, hy, ny⟩ := round_of (s := l - m) (r := ℓ - δ / 2 * (29 / 30)) (ε := 2.82e-6) (M := 1) (by
    rw [show l - m - (ℓ - δ / 2 * (29 / 30)) = (l - ℓ) - (m - δ / 2 * (29 / 30)) by ring]
    refine (abs_sub _ _).trans ?_
    norm_num at *; linarith) (by rw [abs_le]; constructor <;> linarith) (by norm_num)
  exact ⟨y, hy, ny.trans (by norm_num)⟩

/-- The order of the channels. -/
theorem Window.order {r g b : ℝ} (h : Window r g b) : max (max r g) b = r ∧ min (min r g) b = g ∧ g < b ∧ b < r := by
  obtain ⟨g0, r1, wide, low, high⟩ := h
  have h1 : g < b := by norm_num at *; linarith
  have h2 : b < r := by norm_num at *; linarith
  refine ⟨?_, ?_, h1, h2⟩
  · rw [max_eq_left (h1.trans h2).le, max_eq_left h2.le]
  · rw [min_eq_right (h1.trans h2).le, min_eq_left h1.le]

/-- The blue that comes back from HSV. -/
theorem hsv_window {c d : Color} {r g b x y z : ℝ} (h : IsRgb c r g b) (hw : Window r g b) (h1 : Leaf.rgb_deep_to_hsv c = ok d)
    (h2 : Leaf.hsv_to_rgb_deep d = ok { c with comps := [fin x, fin y, fin z] }) : |z - (g + (r - g) / 60)| ≤ 2.5e-6 := by
  obtain ⟨hmx, hmn, hgb, hbr⟩ := hw.order
  obtain ⟨S, eS, S0, S1, hS⟩ := chroma_fine hw.g0 hw.r1 hw.wide
  rw [rgb_eq h] at h1
  simp only [Leaf.rgb_deep_to_hsv, obj_0, obj_1, obj_2, obj_space, obj_malpha, obj_alpha _ _ _ _ _ _ (rfl : Color.scalesAlpha .rgbDeep = false), ok_bind, fmin_fin, fmax_fin, feq_fin, Color.construct_hsv,
    hmx, hmn] at h1
  rw [if_neg (hgb.trans hbr).ne', ok_inj] at h1
  have hd : obj .hsv 359 S r c.malpha c.space = d := by
    rw [← h1]
    simp only [Color.mkHue, hue_359 hw, eS, clamp01 h.r0 h.r1, obj, Color.maxOf, Color.minOf]
  rw [← hd] at h2
  simp only [Leaf.hsv_to_rgb_deep, obj_0, obj_1, obj_2, obj_space, obj_malpha, obj_alpha _ _ _ _ _ _ (rfl : Color.scalesAlpha .hsv = false), ok_bind, Color.construct_rgbDeep,
    Color.mkRgbDeep, ok_inj, Color.mk.injEq, List.cons.injEq] at h2
  have e3 := h2.2.2.1.2.2.1
  have hw1 := hw.r1
  have hw0 := hw.g0
  have hb := (hsv_blue S0 S1 h.r0 h.r1 hS (by linarith) (by linarith)).clamp01 (by linarith) (by linarith)
  obtain ⟨z', ez, nz⟩ := hb
  simp only [lit_def, one_def, zero_def] at e3 ez
  rw [ez, fin.injEq] at e3
  rw [← e3, show g + (r - g) / 60 = r - (r - g) * (59 / 60) by ring]
  exact nz

/-- The blue that comes back from HSL. -/
theorem hsl_window {c d : Color} {r g b x y z : ℝ} (h : IsRgb c r g b) (hw : Window r g b) (h1 : Leaf.rgb_deep_to_hsl c = ok d)
    (h2 : Leaf.hsl_to_rgb_deep d = ok { c with comps := [fin x, fin y, fin z] }) : |z - (g + (r - g) / 60)| ≤ 3.6e-6 := by
  obtain ⟨hmx, hmn, hgb, hbr⟩ := hw.order
  obtain ⟨S, l, el, eS, S0, S1, l0, l1, nl, hS⟩ := lchroma_fine hw.g0 hw.r1 hw.wide
  rw [rgb_eq h] at h1
  simp only [Leaf.rgb_deep_to_hsl, obj_0, obj_1, obj_2, obj_space, obj_malpha, obj_alpha _ _ _ _ _ _ (rfl : Color.scalesAlpha .rgbDeep = false), ok_bind, fmin_fin, fmax_fin, feq_fin, Color.construct_hsl,
    hmx, hmn] at h1
  rw [if_neg (hgb.trans hbr).ne', el, ok_inj] at h1
  have hd : obj .hsl 359 S l c.malpha c.space = d := by
    rw [← h1]
    simp only [Color.mkHue, hue_359 hw, eS, clamp01 l0.le l1.le, obj, Color.maxOf, Color.minOf]
  rw [← hd] at h2
  simp only [Leaf.hsl_to_rgb_deep, obj_0, obj_1, obj_2, obj_space, obj_malpha, obj_alpha _ _ _ _ _ _ (rfl : Color.scalesAlpha .hsl = false), ok_bind, Color.construct_rgbDeep,
    Color.mkRgbDeep, zero_def, feq_fin, l0.ne', if_false, ok_inj, Color.mk.injEq, List.cons.injEq] at h2
  have e3 := h2.2.2.1.2.2.1
  have hw1 := hw.r1
  have hw0 := hw.g0
  have hb := (hsl_blue S0 S1 l0 l1 nl (by linarith) (by linarith) hS (by linarith) (by linarith)).clamp01 (by linarith) (by linarith)
  obtain ⟨z', ez, nz⟩ := hb
  simp only [lit_def, one_def, zero_def] at e3 ez
  rw [ez, fin.injEq] at e3
  rw [← e3, show g + (r - g) / 60 = (r + g) / 2 - (r - g) / 2 * (29 / 30) by ring]
  exact nz

/-- The channel of an 8-bit colour, with the precision of `float`. -/
theorem byte_fine {n : ℕ} (hn : n ≤ 255) {x : ℝ} (h : fin x = Color.clamp (fin n / 255) 1 0) : |x - n / 255| ≤ 1.3e-7 := by
  have h1 : (n : ℝ) ≤ 255 := by exact_mod_cast hn
  have h0 : (0 : ℝ) ≤ n := Nat.cast_nonneg n
  obtain ⟨p, ep, np⟩ := round0 (r := (n : ℝ) / 255) (by positivity) (by rw [div_le_iff₀ (by norm_num)]; linarith)
  have hq : (n : ℝ) / 255 ≤ 1 := by rw [div_le_one (by norm_num)]; exact h1
  have hnear : Near (fin n / 255 : Fl) (n / 255) 1.3e-7 := ⟨p, by rw [lit_def, fin_div _ _ (by norm_num), ep], np.trans (by norm_num at *; linarith)⟩
  obtain ⟨p', ep', np'⟩ := hnear.clamp01 (by positivity) hq
  rw [ep', fin.injEq] at h
  rw [h]; exact np'

/-- 8-bit colours in the window. -/
theorem byte_window {R G B : ℕ} {r g b : ℝ} (hR : R ≤ 255) (hGB : G < B) (lo : G + 60 * (B - G) + 21 ≤ R) (hi : R ≤ G + 60 * (B - G) + 39)
    (g0 : 0 ≤ g) (r1 : r ≤ 1) (hr : |r - R / 255| ≤ 1.3e-7) (hg : |g - G / 255| ≤ 1.3e-7) (hb : |b - B / 255| ≤ 1.3e-7) : Window r g b := by
  obtain ⟨k, rfl⟩ := Nat.exists_eq_add_of_lt hGB
  have hk : k + 1 ≤ 3 := by omega
  have e : G + k + 1 - G = k + 1 := by omega
  rw [e] at lo hi
  have lo' : (G : ℝ) + 60 * (k + 1) + 21 ≤ R := by exact_mod_cast lo
  have hi' : (R : ℝ) ≤ G + 60 * (k + 1) + 39 := by exact_mod_cast hi
  have hk' : (k : ℝ) + 1 ≤ 3 := by exact_mod_cast hk
  have k0 : (0 : ℝ) ≤ k := Nat.cast_nonneg k
  push_cast at hb
  rw [abs_le] at hr hg hb
  refine ⟨g0, r1, ?_, ?_, ?_⟩ <;> (norm_num at *; linarith)

/-- How far the blue of 359 degrees is from the blue of an 8-bit colour. -/
theorem byte_offset {R G B : ℕ} {r g z : ℝ} (hr : |r - R / 255| ≤ 1.3e-7) (hg : |g - G / 255| ≤ 1.3e-7) (hGB : G < B)
    (hz : |z - (g + (r - g) / 60)| ≤ 3.6e-6) (lo : G + 60 * (B - G) + 21 ≤ R) :
    (R ≤ G + 60 * (B - G) + 29 → |z - B / 255| ≤ 19 / 10000) ∧ (G + 60 * (B - G) + 31 ≤ R → (B : ℝ) / 255 + 1 / 500 ≤ z) := by
  obtain ⟨k, rfl⟩ := Nat.exists_eq_add_of_lt hGB
  have e : G + k + 1 - G = k + 1 := by omega
  rw [e] at lo ⊢
  have lo' : (G : ℝ) + 60 * (k + 1) + 21 ≤ R := by exact_mod_cast lo
  push_cast
  rw [abs_le] at hr hg hz
  constructor
  · intro hi
    have hi' : (R : ℝ) ≤ G + 60 * (k + 1) + 29 := by exact_mod_cast hi
    rw [abs_le]; constructor <;> (norm_num at *; linarith)
  · intro hi
    have hi' : (G : ℝ) + 60 * (k + 1) + 31 ≤ R := by exact_mod_cast hi
    norm_num at *; linarith

end

end GapFine

open GapFine

section
variable [FloatModel] [IntExact] [FineError]

/-! ## C126 -/

/-- **C126 (partial)** An 8-bit colour survives the trip through HSV exactly in every arithmetic with the precision of `float`, unless it is a slightly bluish red whose red is at
least 30 steps above the one where the hue is 359 degrees. -/
theorem C126_fine_partial (w : World) (R G B A : ℕ) (hR : R ≤ 255) (hG : G ≤ 255) (hB : B ≤ 255) (hA : A ≤ 255) (sp : Option Nat) (c : Color)
    (hc : Color.construct .rgbTrue [fin R, fin G, fin B] (fin A) sp = ok c) (hok : G < B → R ≤ G + 60 * (B - G) + 29) : Trip w c .hsv .rgbTrue c := by
  by_cases h20 : G < B → R ≤ G + 60 * (B - G) + 20
  · exact C126_bytes_partial w R G B A hR hG hB hA sp c hc h20
  push Not at h20
  obtain ⟨hGB, h20⟩ := h20
  obtain ⟨hcol, d, r, g, b, h1, hd, ⟨er, eg, eb⟩, hn, hback⟩ := byte_deep R G B A hR hG hB hA sp c hc
  obtain ⟨e, r', g', b', h2, h3, n1, n2, -⟩ := hsv_near hd
  have tri : ∀ x y z : ℝ, |x - y| ≤ 1 / 5000 → |y - z| ≤ 1 / 100000 → |x - z| ≤ 19 / 10000 := by
    intro x y z h h'; have := abs_sub_le x y z; linarith
  have hz := hsv_window hd (byte_window hR hGB h20 ((hok hGB).trans (by omega)) hd.g0 hd.r1 (byte_fine hR er) (byte_fine hG eg) (byte_fine hB eb)) h2 h3
  have hb := (byte_offset (byte_fine hR er) (byte_fine hG eg) hGB (hz.trans (by norm_num)) h20).1 (hok hGB)
  refine trip_of (s := .rgbTrue) (by decide) (by decide) (by decide) hcol (d := e) ?_ ?_
  · show (Leaf.rgb_true_to_rgb_deep c >>= Leaf.rgb_deep_to_hsv) = ok e
    rw [h1, ok_bind, h2]
  · show (Leaf.hsv_to_rgb_deep e >>= Leaf.rgb_deep_to_rgb_true) = ok c
    rw [h3, ok_bind]
    exact hback _ _ _ (tri _ _ _ n1 hn.1) (tri _ _ _ n2 hn.2.1) hb

/-- **C126 violated** Every slightly bluish 8-bit red whose red is at least 31 steps above the one where the hue is 359 degrees comes back from HSV with another blue. -/
theorem C126_fine_violated (w : World) (R G B A : ℕ) (hR : R ≤ 255) (hG : G ≤ 255) (hB : B ≤ 255) (hA : A ≤ 255) (sp : Option Nat) (c : Color)
    (hc : Color.construct .rgbTrue [fin R, fin G, fin B] (fin A) sp = ok c) (hGB : G < B) (hgap : G + 60 * (B - G) + 31 ≤ R) : ¬ Trip w c .hsv .rgbTrue c := by
  by_cases h40 : G + 60 * (B - G) + 40 ≤ R
  · exact C126_bytes_violated w R G B A hR hG hB hA sp c hc hGB h40
  obtain ⟨hcol, d, r, g, b, h1, hd, ⟨er, eg, eb⟩, hn, -⟩ := byte_deep R G B A hR hG hB hA sp c hc
  obtain ⟨e, r', g', b', h2, h3, n1, n2, -⟩ := hsv_near hd
  have hz := hsv_window hd (byte_window hR hGB (by omega) (by omega) hd.g0 hd.r1 (byte_fine hR er) (byte_fine hG eg) (byte_fine hB eb)) h2 h3
  have hb := (byte_offset (byte_fine hR er) (byte_fine hG eg) hGB (hz.trans (by norm_num)) (by omega)).2 hgap
  have hz1 : b' ≤ 2 := by
    have := abs_le.mp hz; have := hd.r1; have := hd.g0; have := hd.g1
    norm_num at *; linarith
  refine lifted_trip w hR hG hB hA (by decide) (by decide) hc hcol (e := e) (d := d) (x := r') (y := g') (z := b') ?_ ?_ (by omega) hb hz1
  · show (Leaf.rgb_true_to_rgb_deep c >>= Leaf.rgb_deep_to_hsv) = ok e
    rw [h1, ok_bind, h2]
  · show (Leaf.hsv_to_rgb_deep e >>= Leaf.rgb_deep_to_rgb_true) = _
    rw [h3, ok_bind]

/-- Cases: `(99, 10, 11)` comes back, `(101, 10, 11)` does not. -/
example (w : World) : letI := Binary32.binary32
    Trip w (Color.mkRgbTrue (fin (99 : ℕ)) (fin (10 : ℕ)) (fin (11 : ℕ)) (fin (255 : ℕ)) none) .hsv .rgbTrue
      (Color.mkRgbTrue (fin (99 : ℕ)) (fin (10 : ℕ)) (fin (11 : ℕ)) (fin (255 : ℕ)) none) :=
  letI := Binary32.binary32
  letI := Binary32.binary32_int
  letI := Binary32.binary32_fine
  C126_fine_partial w 99 10 11 255 (by norm_num) (by norm_num) (by norm_num) (by norm_num) none _ (Color.construct_rgbTrue _ _ _ _ _) (by norm_num)
example (w : World) : letI := Binary32.binary32
    ¬ Trip w (Color.mkRgbTrue (fin (101 : ℕ)) (fin (10 : ℕ)) (fin (11 : ℕ)) (fin (255 : ℕ)) none) .hsv .rgbTrue
      (Color.mkRgbTrue (fin (101 : ℕ)) (fin (10 : ℕ)) (fin (11 : ℕ)) (fin (255 : ℕ)) none) :=
  letI := Binary32.binary32
  letI := Binary32.binary32_int
  letI := Binary32.binary32_fine
  C126_fine_violated w 101 10 11 255 (by norm_num) (by norm_num) (by norm_num) (by norm_num) none _ (Color.construct_rgbTrue _ _ _ _ _) (by norm_num) (by norm_num)

/-! ## C127 -/

/-- **C127 (partial)** An 8-bit colour other than black survives the trip through HSL exactly in every arithmetic with the precision of `float`, unless it is a slightly bluish red whose red is at
least 30 steps above the one where the hue is 359 degrees. -/
theorem C127_fine_partial (w : World) (R G B A : ℕ) (hR : R ≤ 255) (hG : G ≤ 255) (hB : B ≤ 255) (hA : A ≤ 255) (sp : Option Nat) (c : Color)
    (hc : Color.construct .rgbTrue [fin R, fin G, fin B] (fin A) sp = ok c) (hbl : ¬ (R = 0 ∧ G = 0 ∧ B = 0)) (hok : G < B → R ≤ G + 60 * (B - G) + 29) : Trip w c .hsl .rgbTrue c := by
  by_cases h20 : G < B → R ≤ G + 60 * (B - G) + 20
  · exact C127_bytes_partial w R G B A hR hG hB hA sp c hc hbl h20
  push Not at h20
  obtain ⟨hGB, h20⟩ := h20
  obtain ⟨hcol, d, r, g, b, h1, hd, ⟨er, eg, eb⟩, hn, hback⟩ := byte_deep R G B A hR hG hB hA sp c hc
  obtain ⟨e, r', g', b', h2, h3, n1, n2, -⟩ := hsl_near hd (not_black hn.1 hn.2.1 hn.2.2 hbl)
  have tri : ∀ x y z : ℝ, |x - y| ≤ 1 / 2000 → |y - z| ≤ 1 / 100000 → |x - z| ≤ 19 / 10000 := by
    intro x y z h h'; have := abs_sub_le x y z; linarith
  have hz := hsl_window hd (byte_window hR hGB h20 ((hok hGB).trans (by omega)) hd.g0 hd.r1 (byte_fine hR er) (byte_fine hG eg) (byte_fine hB eb)) h2 h3
  have hb := (byte_offset (byte_fine hR er) (byte_fine hG eg) hGB (hz.trans (by norm_num)) h20).1 (hok hGB)
  refine trip_of (s := .rgbTrue) (by decide) (by decide) (by decide) hcol (d := e) ?_ ?_
  · show (Leaf.rgb_true_to_rgb_deep c >>= Leaf.rgb_deep_to_hsl) = ok e
    rw [h1, ok_bind, h2]
  · show (Leaf.hsl_to_rgb_deep e >>= Leaf.rgb_deep_to_rgb_true) = ok c
    rw [h3, ok_bind]
    exact hback _ _ _ (tri _ _ _ n1 hn.1) (tri _ _ _ n2 hn.2.1) hb

/-- **C127 violated** Every slightly bluish 8-bit red whose red is at least 31 steps above the one where the hue is 359 degrees comes back from HSL with another blue. -/
theorem C127_fine_violated (w : World) (R G B A : ℕ) (hR : R ≤ 255) (hG : G ≤ 255) (hB : B ≤ 255) (hA : A ≤ 255) (sp : Option Nat) (c : Color)
    (hc : Color.construct .rgbTrue [fin R, fin G, fin B] (fin A) sp = ok c) (hGB : G < B) (hgap : G + 60 * (B - G) + 31 ≤ R) : ¬ Trip w c .hsl .rgbTrue c := by
  by_cases h40 : G + 60 * (B - G) + 40 ≤ R
  · exact C127_bytes_violated w R G B A hR hG hB hA sp c hc hGB h40
  obtain ⟨hcol, d, r, g, b, h1, hd, ⟨er, eg, eb⟩, hn, -⟩ := byte_deep R G B A hR hG hB hA sp c hc
  obtain ⟨e, r', g', b', h2, h3, n1, n2, -⟩ := hsl_near hd (not_black hn.1 hn.2.1 hn.2.2 (by omega))
  have hz := hsl_window hd (byte_window hR hGB (by omega) (by omega) hd.g0 hd.r1 (byte_fine hR er) (byte_fine hG eg) (byte_fine hB eb)) h2 h3
  have hb := (byte_offset (byte_fine hR er) (byte_fine hG eg) hGB (hz.trans (by norm_num)) (by omega)).2 hgap
  have hz1 : b' ≤ 2 := by
    have := abs_le.mp hz; have := hd.r1; have := hd.g0; have := hd.g1
    norm_num at *; linarith
  refine lifted_trip w hR hG hB hA (by decide) (by decide) hc hcol (e := e) (d := d) (x := r') (y := g') (z := b') ?_ ?_ (by omega) hb hz1
  · show (Leaf.rgb_true_to_rgb_deep c >>= Leaf.rgb_deep_to_hsl) = ok e
    rw [h1, ok_bind, h2]
  · show (Leaf.hsl_to_rgb_deep e >>= Leaf.rgb_deep_to_rgb_true) = _
    rw [h3, ok_bind]

/-- Cases: `(99, 10, 11)` comes back, `(101, 10, 11)` does not. -/
example (w : World) : letI := Binary32.binary32
    Trip w (Color.mkRgbTrue (fin (99 : ℕ)) (fin (10 : ℕ)) (fin (11 : ℕ)) (fin (255 : ℕ)) none) .hsl .rgbTrue
      (Color.mkRgbTrue (fin (99 : ℕ)) (fin (10 : ℕ)) (fin (11 : ℕ)) (fin (255 : ℕ)) none) :=
  letI := Binary32.binary32
  letI := Binary32.binary32_int
  letI := Binary32.binary32_fine
  C127_fine_partial w 99 10 11 255 (by norm_num) (by norm_num) (by norm_num) (by norm_num) none _ (Color.construct_rgbTrue _ _ _ _ _) (by norm_num) (by norm_num)
example (w : World) : letI := Binary32.binary32
    ¬ Trip w (Color.mkRgbTrue (fin (101 : ℕ)) (fin (10 : ℕ)) (fin (11 : ℕ)) (fin (255 : ℕ)) none) .hsl .rgbTrue
      (Color.mkRgbTrue (fin (101 : ℕ)) (fin (10 : ℕ)) (fin (11 : ℕ)) (fin (255 : ℕ)) none) :=
  letI := Binary32.binary32
  letI := Binary32.binary32_int
  letI := Binary32.binary32_fine
  C127_fine_violated w 101 10 11 255 (by norm_num) (by norm_num) (by norm_num) (by norm_num) none _ (Color.construct_rgbTrue _ _ _ _ _) (by norm_num) (by norm_num)

end

import Verif.FineError
import Verif.GammaLemmas
import Mathlib.Analysis.Convex.SpecificFunctions.Basic
import Mathlib.Analysis.Complex.ExponentialBounds

/-!
# Gamma curves in single precision
-/

open Outcome Fl

namespace Fine

/-! ## Real powers -/

theorem rpow_ge {x c : ℝ} {m n : ℕ} (hn : n ≠ 0) (hc : 0 ≤ c) (hx : 0 ≤ x) (h : c ^ n ≤ x ^ m) : c ≤ x ^ ((m : ℝ) / n) := by
  have h1 : (c ^ n) ^ ((n : ℝ)⁻¹) ≤ (x ^ m) ^ ((n : ℝ)⁻¹) := Real.rpow_le_rpow (by positivity) h (by positivity)
  rw [Real.pow_rpow_inv_natCast hc hn, ← Real.rpow_natCast x m, ← Real.rpow_mul hx, ← div_eq_mul_inv] at h1
  exact h1

/-- A convex power lies above its tangents. -/
theorem tangent {a b t : ℝ} (ha : 0 < a) (hb : 0 ≤ b) (ht : 1 ≤ t) : a ^ t + t * a ^ (t - 1) * (b - a) ≤ b ^ t := by
  have h1 := one_add_mul_self_le_rpow_one_add (s := (b - a) / a) (by rw [le_div_iff₀ ha]; linarith) ht
  have h2 : (1 : ℝ) + (b - a) / a = b / a := by field_simp; ring
  rw [h2, Real.div_rpow hb ha.le] at h1
  have h3 : 0 < a ^ t := Real.rpow_pos_of_pos ha t
  rw [le_div_iff₀ h3] at h1
  rw [Real.rpow_sub_one ha.ne']
  calc a ^ t + t * (a ^ t / a) * (b - a) = (1 + t * ((b - a) / a)) * a ^ t := by field_simp
    _ ≤ _ := h1

/-- Lower bound for the slope of `x ^ 2.4`. -/
theorem slope_low {a b : ℝ} (ha : 0.09 ≤ a) (hb : 0.09 ≤ b) : 0.0823 * |a - b| ≤ |a ^ (12 / 5 : ℝ) - b ^ (12 / 5 : ℝ)| := by
  have key : ∀ a b : ℝ, 0.09 ≤ a → a ≤ b → 0.0823 * (b - a) ≤ b ^ (12 / 5 : ℝ) - a ^ (12 / 5 : ℝ) := by
    intro a b ha hab
    have ha0 : 0 < a := lt_of_lt_of_le (by norm_num) ha
    have h1 := tangent (t := 12 / 5) ha0 (ha0.le.trans hab) (by norm_num)
    have h2 : (0.0343 : ℝ) ≤ a ^ (12 / 5 - 1 : ℝ) := by
      have := rpow_ge (x := a) (c := 0.0343) (m := 7) (n := 5) (by norm_num) (by norm_num) ha0.le
        (le_trans (by norm_num) (pow_le_pow_left₀ (by norm_num) ha 7))
      norm_num at this ⊢; exact this
    have h3 : 0.0343 * (b - a) ≤ a ^ (12 / 5 - 1 : ℝ) * (b - a) := mul_le_mul_of_nonneg_right h2 (by linarith)
    norm_num at h1 h3 ⊢
    linarith
  rcases le_total a b with h | h
  · have := key a b ha h
    rw [abs_sub_comm, abs_of_nonneg (by linarith : 0 ≤ b - a), abs_sub_comm]
    exact this.trans (le_abs_self _)
  · have := key b a hb h
    rw [abs_of_nonneg (by linarith : 0 ≤ a - b)]
    exact this.trans (le_abs_self _)

/-- Upper bound for the slope of a convex power below 1. -/
theorem slope_high {a b t : ℝ} (ha : 0 < a) (hb : 0 < b) (ha1 : a ≤ 1) (hb1 : b ≤ 1) (ht : 1 ≤ t) : |a ^ t - b ^ t| ≤ t * |a - b| := by
  have key : ∀ a b : ℝ, 0 < a → a ≤ b → b ≤ 1 → b ^ t - a ^ t ≤ t * (b - a) ∧ 0 ≤ b ^ t - a ^ t := by
    intro a b ha hab hb1
    have h1 := tangent (ha.trans_le hab) ha.le ht
    have h2 : b ^ (t - 1) ≤ 1 := Real.rpow_le_one (ha.le.trans hab) hb1 (by linarith)
    have h3 : a ^ t ≤ b ^ t := Real.rpow_le_rpow ha.le hab (by linarith)
    have h4 : t * b ^ (t - 1) * (b - a) ≤ t * 1 * (b - a) := by
      apply mul_le_mul_of_nonneg_right _ (by linarith)
      exact mul_le_mul_of_nonneg_left h2 (by linarith)
    constructor <;> linarith
  rcases le_total a b with h | h
  · have := key a b ha h hb1
    rw [abs_sub_comm, abs_of_nonneg this.2, abs_sub_comm, abs_of_nonneg (by linarith : 0 ≤ b - a)]
    exact this.1
  · have := key b a hb h ha1
    rw [abs_of_nonneg this.2, abs_of_nonneg (by linarith : 0 ≤ a - b)]
    exact this.1

theorem log_low {x : ℝ} (h : 0.003 ≤ x) (h1 : x ≤ 1.001) : |Real.log x| ≤ 6 := by
  have hx : 0 < x := lt_of_lt_of_le (by norm_num) h
  rw [abs_le]
  constructor
  · rw [Real.le_log_iff_exp_le hx]
    refine le_trans ?_ h
    rw [Real.exp_neg]
    have e6 : Real.exp 6 = Real.exp 1 ^ 6 := by rw [← Real.exp_nat_mul]; norm_num
    have : (2.7 : ℝ) ^ 6 ≤ Real.exp 6 := by
      rw [e6]
      exact pow_le_pow_left₀ (by norm_num) (le_trans (by norm_num) Real.exp_one_gt_d9.le) 6
    rw [inv_le_comm₀ (Real.exp_pos _) (by norm_num)]
    refine le_trans ?_ this
    norm_num
  · have := Real.log_le_sub_one_of_pos hx
    linarith

/-- A power whose base and exponent are slightly off. -/
theorem pow_perturb {x y u v : ℝ} (hx : 0.003 ≤ x) (hx1 : x ≤ 1.001) (hy : 0.4 ≤ y) (hy1 : y ≤ 2.5) (hu : |u - x| ≤ 6e-7 * x) (hv : |v - y| ≤ 6e-7) :
    0 < u ∧ |u ^ v - x ^ y| ≤ 1.2e-5 * x ^ y := by
  have hx0 : 0 < x := lt_of_lt_of_le (by norm_num) hx
  have hu' := abs_le.mp hu
  have hv' := abs_le.mp hv
  have hu0 : 0 < u := by norm_num at *; linarith
  refine ⟨hu0, ?_⟩
  have hlx := log_low hx hx1
  have hq : 0 < u / x := div_pos hu0 hx0
  have hr : |u / x - 1| ≤ 6e-7 := by
    rw [div_sub_one hx0.ne', abs_div, abs_of_pos hx0, div_le_iff₀ hx0]; exact hu
  have hr' := abs_le.mp hr
  have hlog : |Real.log (u / x)| ≤ 6.1e-7 := by
    have h1 := Real.log_le_sub_one_of_pos hq
    have h2 := Real.one_sub_inv_le_log_of_pos hq
    have h3 : (u / x)⁻¹ ≤ 1 + 6.1e-7 := by
      rw [inv_le_comm₀ hq (by norm_num)]
      refine le_trans ?_ (by linarith : 1 - 6e-7 ≤ u / x)
      norm_num
    rw [abs_le]; constructor <;> linarith
  have e1 : u ^ v = x ^ y * Real.exp (v * Real.log (u / x) + (v - y) * Real.log x) := by
    rw [Real.rpow_def_of_pos hu0, Real.rpow_def_of_pos hx0, ← Real.exp_add, Real.log_div hu0.ne' hx0.ne']
    congr 1; ring
  have hd : |v * Real.log (u / x) + (v - y) * Real.log x| ≤ 6e-6 := by
    refine (abs_add_le _ _).trans ?_
    rw [abs_mul, abs_mul]
    have a1 : |v| ≤ 2.51 := by rw [abs_le]; constructor <;> norm_num at * <;> linarith
    have a2 : |v| * |Real.log (u / x)| ≤ 2.51 * 6.1e-7 := mul_le_mul a1 hlog (abs_nonneg _) (by norm_num)
    have a3 : |v - y| * |Real.log x| ≤ 6e-7 * 6 := mul_le_mul hv hlx (abs_nonneg _) (by norm_num)
    norm_num at *; linarith
  have hp : 0 < x ^ y := Real.rpow_pos_of_pos hx0 y
  rw [e1, show ∀ E : ℝ, x ^ y * E - x ^ y = x ^ y * (E - 1) by intro; ring, abs_mul, abs_of_pos hp, mul_comm]
  have := Real.abs_exp_sub_one_le (hd.trans (by norm_num))
  exact mul_le_mul_of_nonneg_right (by norm_num at *; linarith) hp.le

variable [FloatModel] [FineError]

/-- `powf` with arguments that are slightly off. -/
theorem powf_appr {X Y : Fl} {x y k l : ℝ} (hx : 0.003 ≤ x) (hx1 : x ≤ 1.001) (hy : 0.4 ≤ y) (hy1 : y ≤ 2.5) (hX : Appr X x x k) (hY : Appr Y y y l) (hk : k ≤ 5) (hl : l * y ≤ 5) :
    Near (powf X Y) (x ^ y) (2e-5 * x ^ y) := by
  obtain ⟨u, rfl, hu⟩ := hX.near
  obtain ⟨v, rfl, hv⟩ := hY.near
  have hx0 : 0 < x := lt_of_lt_of_le (by norm_num) hx
  have hkx : k * x ≤ 5 * x := mul_le_mul_of_nonneg_right hk hx0.le
  have hu1 : |u - x| ≤ 6e-7 * x := hu.trans (by norm_num at *; linarith)
  have hv1 : |v - y| ≤ 6e-7 := hv.trans (by norm_num at *; linarith)
  obtain ⟨hu0, h1⟩ := pow_perturb hx hx1 hy hy1 hu1 hv1
  have hu' := abs_le.mp hu1
  have hv' := abs_le.mp hv1
  obtain ⟨r, e, h2⟩ := FineError.powf_near u v hu0 (by norm_num at *; linarith) (by norm_num at *; linarith) (by norm_num at *; linarith)
  have hp : 0 < x ^ y := Real.rpow_pos_of_pos hx0 y
  have hpl : (1e-8 : ℝ) ≤ x ^ y := by
    have h3 : (0.003 : ℝ) ^ 3 ≤ x ^ y := by
      rcases le_total x 1 with h | h
      · calc (0.003 : ℝ) ^ 3 ≤ x ^ 3 := pow_le_pow_left₀ (by norm_num) hx 3
          _ = x ^ (3 : ℝ) := by norm_num
          _ ≤ x ^ y := Real.rpow_le_rpow_of_exponent_ge hx0 h (by linarith)
      · exact le_trans (by norm_num) (Real.one_le_rpow h (by linarith))
    exact le_trans (by norm_num) h3
  refine ⟨r, e, ?_⟩
  have h1' := abs_le.mp h1
  have h2' := abs_le.mp h2
  rw [abs_le]
  norm_num at *
  constructor <;> linarith

theorem lit_lt {x y : ℝ} (h0 : 0 < y) (hy : y ≤ 1000) (hy0 : 1e-20 ≤ y) (h : x ≤ y * (1 - 2e-7)) : fin x ≤ lit y := by
  obtain ⟨z, e, hz⟩ := (Appr.lit (le_of_eq (abs_of_pos h0)) hy0 hy).near
  rw [e, fin_le]
  rw [abs_le] at hz
  norm_num at *; linarith

theorem lit_gt {x y : ℝ} (h0 : 0 < y) (hy : y ≤ 1000) (hy0 : 1e-20 ≤ y) (h : y * (1 + 2e-7) ≤ x) : ¬ fin x ≤ lit y := by
  obtain ⟨z, e, hz⟩ := (Appr.lit (le_of_eq (abs_of_pos h0)) hy0 hy).near
  rw [e, fin_le, not_le]
  rw [abs_le] at hz
  norm_num at *; linarith

theorem lit_appr {y : ℝ} (h0 : 1e-20 ≤ y) (hy : y ≤ 1000) : Appr (lit y) y y 1 := Appr.lit (le_of_eq (abs_of_nonneg (le_trans (by norm_num) h0))) h0 hy

/-- What a trip needs of a gamma curve: decoding the channel `n` of an 8-bit colour, an error of at most `tol` (2.5e-3 for the channel 255), and encoding it again lead back to
`n`.  Only the channel 255 is decoded to more than 0.995. -/
def KeepsBy (gp : GammaPreset) (tol : ℝ) : Prop := ∀ n : ℕ, n ≤ 255 → ∀ v : ℝ, 0 ≤ v → v ≤ 1 → |v - n / 255| ≤ 1 / 100000 →
  ∃ l, Color.clamp (GammaPreset.evalParts gp.invParts (fin v)) 1 0 = fin l ∧ 0 ≤ l ∧ l ≤ 1 ∧ (n < 255 → l ≤ 0.995) ∧
    ∀ y : ℝ, 0 ≤ y → y ≤ 1 → (|y - l| ≤ tol ∨ n = 255 ∧ |y - l| ≤ 2.5e-3) → ∃ r, Color.clamp (GammaPreset.evalParts gp.parts (fin y)) 1 0 = fin r ∧ |r - n / 255| ≤ 19 / 10000

/-- What the trip needs of a gamma curve: decoding the channel `n` of an 8-bit colour, an error of at most 6.4e-5, and encoding it again lead back to `n`. -/
def Keeps (gp : GammaPreset) : Prop := ∀ n : ℕ, n ≤ 255 → ∀ v : ℝ, 0 ≤ v → v ≤ 1 → |v - n / 255| ≤ 1 / 100000 → ∃ l, Color.clamp (GammaPreset.evalParts gp.invParts (fin v)) 1 0 = fin l ∧
  0 ≤ l ∧ l ≤ 1 ∧ ∀ y : ℝ, 0 ≤ y → y ≤ 1 → |y - l| ≤ 6.4e-5 → ∃ r, Color.clamp (GammaPreset.evalParts gp.parts (fin y)) 1 0 = fin r ∧ |r - n / 255| ≤ 19 / 10000

omit [FloatModel] [FineError] in
theorem near_byte {n k : ℕ} {v : ℝ} (hv : |v - n / 255| ≤ 1 / 100000) : v ≤ k / 255 + 1 / 100000 ∨ (k + 1) / 255 - 1 / 100000 ≤ v := by
  rw [abs_le] at hv
  rcases Nat.lt_or_ge k n with h | h
  · right
    have : (k : ℝ) + 1 ≤ n := by exact_mod_cast h
    linarith
  · left
    have : (n : ℝ) ≤ k := by exact_mod_cast h
    linarith

omit [FloatModel] [FineError] in
theorem clamp_range {x : Fl} {l : ℝ} (h : Color.clamp x 1 0 = fin l) : 0 ≤ l ∧ l ≤ 1 := by
  have := Color.clamp_inRange x (mx := 1) (mn := 0) (by norm_num)
  simp only [one_def, zero_def] at h
  rw [h] at this; simpa using this

theorem keepsBy_sRGB : KeepsBy .sRGB 9.3e-5 := by
  intro n hn v v0 v1 hv
  have ev : GammaPreset.evalParts GammaPreset.sRGB.invParts (fin v) = if fin v ≤ lit 0.04045 then fin v / lit 12.92 else powf ((fin v + lit 0.055) / lit 1.055) (lit (12 / 5)) := by
    simp only [GammaPreset.invParts, GammaPreset.evalParts, GammaPart.make]
    rw [if_pos (show fin v ≤ (1 : Fl) by rw [one_def, fin_le]; exact v1)]
  have ec : ∀ y : ℝ, y ≤ 1 → GammaPreset.evalParts GammaPreset.sRGB.parts (fin y) =
      if fin y ≤ lit 0.0031308 then lit 12.92 * fin y else lit 1.055 * powf (fin y) (1 / lit (12 / 5)) - lit 0.055 := by
    intro y hy
    simp only [GammaPreset.parts, GammaPreset.evalParts, GammaPart.make]
    rw [if_pos (show fin y ≤ (1 : Fl) by rw [one_def, fin_le]; exact hy)]
  rw [ev]
  have hlit : Appr (lit 12.92) 12.92 12.92 1 := lit_appr (by norm_num) (by norm_num)
  have hcase := near_byte (k := 10) hv
  rcases hcase with hlow | hhigh
  · -- the linear part
    norm_num at hlow
    rw [if_pos (lit_lt (by norm_num) (by norm_num) (by norm_num) (by norm_num; linarith))]
    have hvr : Appr (fin v) v 0.0393 0 := Appr.exact (by rw [abs_of_nonneg v0]; norm_num; linarith)
    have hd := (hvr.div hlit 12.92 1 (by norm_num) (by norm_num) (by norm_num) (by norm_num) (by norm_num) (by norm_num)).near
    obtain ⟨l, el, hl⟩ := hd.clamp01 (by positivity) (by rw [div_le_one (by norm_num)]; norm_num; linarith)
    obtain ⟨l0, l1⟩ := clamp_range el
    refine ⟨l, el, l0, l1, fun _ => ?_, fun y y0 y1 hy => ?_⟩
    · rw [abs_le] at hl
      norm_num at hl ⊢
      linarith
    replace hy : |y - l| ≤ 9.3e-5 := by
      refine hy.resolve_right fun hh => ?_
      rw [hh.1, abs_le] at hv
      norm_num at hv
      linarith
    rw [abs_le] at hl hy
    norm_num at hl hy
    rw [ec y y1, if_pos (lit_lt (by norm_num) (by norm_num) (by norm_num) (by norm_num; linarith))]
    have hyr : Appr (fin y) y 0.0032 0 := Appr.exact (by rw [abs_of_nonneg y0]; norm_num; linarith)
    have hm := (hlit.mul hyr (by norm_num) (by norm_num) (by norm_num) (by norm_num)).near
    obtain ⟨r, er, hr⟩ := hm.clamp01 (by positivity) (by norm_num; linarith)
    refine ⟨r, er, ?_⟩
    rw [abs_le] at hr hv ⊢
    norm_num at hr hv ⊢
    constructor <;> linarith
  · -- the power
    norm_num at hhigh
    rw [if_neg (lit_gt (by norm_num) (by norm_num) (by norm_num) (by norm_num; linarith))]
    have hvr : Appr (fin v) v v 0 := Appr.exact (le_of_eq (abs_of_nonneg v0))
    have h055 : Appr (lit 0.055) 0.055 0.055 1 := lit_appr (by norm_num) (by norm_num)
    have h1055 : Appr (lit 1.055) 1.055 1.055 1 := lit_appr (by norm_num) (by norm_num)
    have h24 : Appr (lit (12 / 5)) (12 / 5) (12 / 5) 1 := lit_appr (by norm_num) (by norm_num)
    have hs := hvr.add h055 1 (by norm_num) le_rfl (by norm_num) (by norm_num; linarith) (by norm_num; linarith)
    have hq := hs.div h1055 1.055 1 (by norm_num) (by norm_num) (by norm_num) (by norm_num) (by rw [le_div_iff₀ (by norm_num)]; norm_num; linarith)
      (by rw [div_le_iff₀ (by norm_num)]; norm_num; linarith)
    set x := (v + 0.055) / 1.055 with hx
    have hxv : 1.055 * x = v + 0.055 := by rw [hx]; field_simp
    have x0 : 0.0929 ≤ x := by rw [hx, le_div_iff₀ (by norm_num)]; norm_num; linarith
    have x1 : x ≤ 1 := by rw [hx, div_le_iff₀ (by norm_num)]; norm_num; linarith
    have hxp : 0 < x := lt_of_lt_of_le (by norm_num) x0
    have hp := powf_appr (le_trans (by norm_num) x0) (by linarith) (by norm_num) (by norm_num) hq h24 (by norm_num) (by norm_num)
    have hpow1 : x ^ (12 / 5 : ℝ) ≤ 1 := Real.rpow_le_one hxp.le x1 (by norm_num)
    have hpow0 : (0.00333 : ℝ) ≤ x ^ (12 / 5 : ℝ) := by
      have := rpow_ge (x := x) (c := 0.00333) (m := 12) (n := 5) (by norm_num) (by norm_num) hxp.le
        (le_trans (by norm_num) (pow_le_pow_left₀ (by norm_num) x0 12))
      norm_num at this ⊢; exact this
    obtain ⟨l, el, hl⟩ := hp.clamp01 (le_trans (by norm_num) hpow0) hpow1
    obtain ⟨l0, l1⟩ := clamp_range el
    refine ⟨l, el, l0, l1, fun hn => ?_, fun y y0 y1 hy => ?_⟩
    · have hn' : (n : ℝ) ≤ 254 := by exact_mod_cast Nat.lt_succ_iff.mp hn
      have hx2 : x ≤ 0.9963 := by
        rw [hx, div_le_iff₀ (by norm_num)]
        rw [abs_le] at hv
        norm_num at hv ⊢
        linarith
      have hsq : x ^ (12 / 5 : ℝ) ≤ x ^ 2 := by
        rw [← Real.rpow_natCast]
        exact Real.rpow_le_rpow_of_exponent_ge hxp x1 (by norm_num)
      have hsq2 : x ^ 2 ≤ 0.9963 ^ 2 := pow_le_pow_left₀ hxp.le hx2 2
      rw [abs_le] at hl
      norm_num at hl hsq hsq2 ⊢
      linarith
    rw [abs_le] at hl
    norm_num at hl hpow0
    have htop : n = 255 → 0.9999 ≤ l ∧ 0.9999 ≤ x := by
      intro hn
      rw [hn, abs_le] at hv
      have hx2 : 0.99998 ≤ x := by
        rw [hx, le_div_iff₀ (by norm_num)]
        norm_num at hv ⊢
        linarith
      have hcu : x ^ 3 ≤ x ^ (12 / 5 : ℝ) := by
        rw [← Real.rpow_natCast]
        exact Real.rpow_le_rpow_of_exponent_ge hxp x1 (by norm_num)
      have hcu2 : 0.99998 ^ 3 ≤ x ^ 3 := pow_le_pow_left₀ (by norm_num) hx2 3
      norm_num at hl hcu hcu2 hx2 ⊢
      constructor <;> linarith
    have ylow : 0.0032 ≤ y := by
      rcases hy with hy | ⟨hn, hy⟩
      · rw [abs_le] at hy
        norm_num at hy ⊢; linarith
      · have := (htop hn).1
        rw [abs_le] at hy
        norm_num at hy this ⊢; linarith
    have hyp : 0 < y := lt_of_lt_of_le (by norm_num) ylow
    rw [ec y y1, if_neg (lit_gt (by norm_num) (by norm_num) (by norm_num) (by norm_num; linarith))]
    have hone : Appr (1 : Fl) 1 1 0 := by rw [one_def]; exact Appr.exact (by simp)
    have hinv := hone.div h24 (12 / 5) 1 (by norm_num) (by norm_num) (by norm_num) (by norm_num) (by norm_num) (by norm_num)
    have hyr : Appr (fin y) y y 0 := Appr.exact (le_of_eq (abs_of_pos hyp))
    have hpy := powf_appr (le_trans (by norm_num) ylow) (by linarith) (by norm_num) (by norm_num) hyr hinv (by norm_num) (by norm_num)
    rw [show (1 : ℝ) / (12 / 5) = 5 / 12 by norm_num] at hpy
    have hy1' : y ^ (5 / 12 : ℝ) ≤ 1 := Real.rpow_le_one hyp.le y1 (by norm_num)
    have hy0' : (0.09 : ℝ) ≤ y ^ (5 / 12 : ℝ) := by
      have := rpow_ge (x := y) (c := 0.09) (m := 5) (n := 12) (by norm_num) (by norm_num) hyp.le
        (le_trans (by norm_num) (pow_le_pow_left₀ (by norm_num) ylow 5))
      norm_num at this ⊢; exact this
    have hback : (y ^ (5 / 12 : ℝ)) ^ (12 / 5 : ℝ) = y := by
      rw [← Real.rpow_mul hyp.le]; norm_num
    have hsl := slope_low hy0' (le_trans (by norm_num) x0 : (0.09 : ℝ) ≤ x)
    rw [hback] at hsl
    set P := y ^ (5 / 12 : ℝ) with hP
    have hPx : |P - x| ≤ 1.39e-3 := by
      rcases hy with hy | ⟨hn, hy⟩
      · have hyx : |y - x ^ (12 / 5 : ℝ)| ≤ 1.131e-4 := by
          rw [abs_le] at hy ⊢; norm_num at hy ⊢; constructor <;> linarith
        norm_num at hsl hyx ⊢; linarith
      · obtain ⟨t1, t2⟩ := htop hn
        have hy2 : 0.9973 ≤ y := by
          rw [abs_le] at hy
          norm_num at hy t1 ⊢; linarith
        have := rpow_ge (x := y) (c := 0.9987) (m := 5) (n := 12) (by norm_num) (by norm_num) hyp.le
          (le_trans (by norm_num) (pow_le_pow_left₀ (by norm_num) hy2 5))
        have hP3 : 0.9987 ≤ P := by norm_num [hP] at this ⊢; exact this
        rw [abs_le]
        norm_num at hP3 t2 ⊢
        constructor <;> linarith
    obtain ⟨P', eP, hP'⟩ := hpy
    have hP2 : |P' - P| ≤ 2e-5 := hP'.trans (by norm_num; linarith)
    rw [eP]
    have hP'r : Appr (fin P') P' 1.1 0 := Appr.exact (by rw [abs_le] at hP2 ⊢; norm_num at *; constructor <;> linarith)
    have hfin := ((h1055.mul hP'r (by norm_num) (by norm_num) (by norm_num) (by norm_num)).sub h055 2.2 (by norm_num) (by norm_num) (by norm_num) (by norm_num) (by norm_num)).near
    have hw : Near (lit 1.055 * fin P' - lit 0.055) v 1.6e-3 := by
      obtain ⟨z, ez, hz⟩ := hfin
      refine ⟨z, ez, ?_⟩
      rw [abs_le] at hz hP2 hPx ⊢
      norm_num at hz hP2 hPx hxv ⊢
      constructor <;> linarith
    obtain ⟨r, er, hr⟩ := hw.clamp01 v0 v1
    refine ⟨r, er, ?_⟩
    rw [abs_le] at hr hv ⊢
    norm_num at hr hv ⊢
    constructor <;> linarith

theorem keeps_sRGB : Keeps .sRGB := fun n hn v v0 v1 hv => by
  obtain ⟨l, el, l0, l1, -, h⟩ := keepsBy_sRGB n hn v v0 v1 hv
  exact ⟨l, el, l0, l1, fun y y0 y1 hy => h y y0 y1 (.inl (hy.trans (by norm_num)))⟩

theorem keeps_uhdtv : Keeps .uhdtv := by
  intro n hn v v0 v1 hv
  have ev : GammaPreset.evalParts GammaPreset.uhdtv.invParts (fin v) = if fin v ≤ lit 0.018053968510807 then fin 4.5 * fin v else lit 1.099 * powf (fin v) (lit 0.45) - lit 0.099 := by
    simp only [GammaPreset.invParts, GammaPreset.evalParts, GammaPart.make]
    rw [if_pos (show fin v ≤ (1 : Fl) by rw [one_def, fin_le]; exact v1)]
  have ec : ∀ y : ℝ, y ≤ 1 → GammaPreset.evalParts GammaPreset.uhdtv.parts (fin y) =
      if fin y ≤ lit 0.081 then fin y / fin 4.5 else powf ((fin y + lit 0.099) / lit 1.099) (1 / lit 0.45) := by
    intro y hy
    simp only [GammaPreset.parts, GammaPreset.evalParts, GammaPart.make]
    rw [if_pos (show fin y ≤ (1 : Fl) by rw [one_def, fin_le]; exact hy)]
  rw [ev]
  have hfour : Appr (fin 4.5) 4.5 4.5 0 := Appr.exact (by norm_num)
  have hcase := near_byte (k := 4) hv
  rcases hcase with hlow | hhigh
  · norm_num at hlow
    rw [if_pos (lit_lt (by norm_num) (by norm_num) (by norm_num) (by norm_num; linarith))]
    have hvr : Appr (fin v) v 0.0157 0 := Appr.exact (by rw [abs_of_nonneg v0]; norm_num; linarith)
    have hd := (hfour.mul hvr (by norm_num) (by norm_num) (by norm_num) (by norm_num)).near
    obtain ⟨l, el, hl⟩ := hd.clamp01 (by positivity) (by norm_num; linarith)
    obtain ⟨l0, l1⟩ := clamp_range el
    refine ⟨l, el, l0, l1, fun y y0 y1 hy => ?_⟩
    rw [abs_le] at hl hy
    norm_num at hl hy
    rw [ec y y1, if_pos (lit_lt (by norm_num) (by norm_num) (by norm_num) (by norm_num; linarith))]
    have hyr : Appr (fin y) y 0.08 0 := Appr.exact (by rw [abs_of_nonneg y0]; norm_num; linarith)
    have hm := (hyr.div hfour 4.5 1 (by norm_num) (by norm_num) (by norm_num) (by norm_num) (by norm_num) (by norm_num)).near
    obtain ⟨r, er, hr⟩ := hm.clamp01 (by positivity) (by rw [div_le_one (by norm_num)]; norm_num; linarith)
    refine ⟨r, er, ?_⟩
    rw [abs_le] at hr hv ⊢
    norm_num at hr hv ⊢
    constructor <;> linarith
  · norm_num at hhigh
    rw [if_neg (lit_gt (by norm_num) (by norm_num) (by norm_num) (by norm_num; linarith))]
    have hvp : 0 < v := by linarith
    have hvr : Appr (fin v) v v 0 := Appr.exact (le_of_eq (abs_of_nonneg v0))
    have h099 : Appr (lit 0.099) 0.099 0.099 1 := lit_appr (by norm_num) (by norm_num)
    have h1099 : Appr (lit 1.099) 1.099 1.099 1 := lit_appr (by norm_num) (by norm_num)
    have h45 : Appr (lit 0.45) 0.45 0.45 1 := lit_appr (by norm_num) (by norm_num)
    have vlow : 0.01959 ≤ v := by norm_num; linarith
    have hp := powf_appr (le_trans (by norm_num) vlow) (by linarith) (by norm_num) (by norm_num) hvr h45 (by norm_num) (by norm_num)
    have hp1 : v ^ (0.45 : ℝ) ≤ 1 := Real.rpow_le_one v0 v1 (by norm_num)
    have hp0 : (0.17 : ℝ) ≤ v ^ (0.45 : ℝ) := by
      have := rpow_ge (x := v) (c := 0.17) (m := 9) (n := 20) (by norm_num) (by norm_num) v0
        (le_trans (by norm_num) (pow_le_pow_left₀ (by norm_num) vlow 9))
      norm_num at this ⊢; exact this
    have hback : (v ^ (0.45 : ℝ)) ^ (1 / 0.45 : ℝ) = v := by
      rw [← Real.rpow_mul v0]; norm_num
    set P := v ^ (0.45 : ℝ) with hP
    obtain ⟨P', eP, hP'⟩ := hp
    have hP2 : |P' - P| ≤ 2e-5 := hP'.trans (by norm_num; linarith)
    rw [eP]
    have hP'r : Appr (fin P') P' 1.1 0 := Appr.exact (by rw [abs_le] at hP2 ⊢; norm_num at *; constructor <;> linarith)
    have hfin := ((h1099.mul hP'r (by norm_num) (by norm_num) (by norm_num) (by norm_num)).sub h099 2.2 (by norm_num) (by norm_num) (by norm_num) (by norm_num) (by norm_num)).near
    have hw : Near (lit 1.099 * fin P' - lit 0.099) (1.099 * P - 0.099) 3e-5 := by
      obtain ⟨z, ez, hz⟩ := hfin
      refine ⟨z, ez, ?_⟩
      rw [abs_le] at hz hP2 ⊢
      norm_num at hz hP2 ⊢
      constructor <;> linarith
    obtain ⟨l, el, hl⟩ := hw.clamp01 (by norm_num at *; linarith) (by norm_num at *; linarith)
    obtain ⟨l0, l1⟩ := clamp_range el
    refine ⟨l, el, l0, l1, fun y y0 y1 hy => ?_⟩
    rw [abs_le] at hl hy
    norm_num at hl hy hp0
    rw [ec y y1, if_neg (lit_gt (by norm_num) (by norm_num) (by norm_num) (by norm_num; linarith))]
    have hyp : 0 < y := by linarith
    have hyr : Appr (fin y) y y 0 := Appr.exact (le_of_eq (abs_of_pos hyp))
    have hone : Appr (1 : Fl) 1 1 0 := by rw [one_def]; exact Appr.exact (by simp)
    have hinv := hone.div h45 0.45 1 (by norm_num) (by norm_num) (by norm_num) (by norm_num) (by norm_num) (by norm_num)
    have hs := hyr.add h099 1 (by norm_num) le_rfl (by norm_num) (by norm_num; linarith) (by norm_num; linarith)
    have hq := hs.div h1099 1.099 1 (by norm_num) (by norm_num) (by norm_num) (by norm_num) (by rw [le_div_iff₀ (by norm_num)]; norm_num; linarith)
      (by rw [div_le_iff₀ (by norm_num)]; norm_num; linarith)
    set z := (y + 0.099) / 1.099 with hz
    have hzy : 1.099 * z = y + 0.099 := by rw [hz]; field_simp
    norm_num at hzy
    have z0 : 0.16 ≤ z := by norm_num; linarith
    have z1 : z ≤ 1 := by linarith
    have hpz := powf_appr (le_trans (by norm_num) z0) (by linarith) (by norm_num) (by norm_num) hq hinv (by norm_num) (by norm_num)
    have hzp : z ^ (1 / 0.45 : ℝ) ≤ 1 := Real.rpow_le_one (le_trans (by norm_num) z0) z1 (by norm_num)
    have hsl := slope_high (t := 1 / 0.45) (lt_of_lt_of_le (by norm_num) z0) (by linarith : 0 < P) z1 hp1 (by norm_num)
    rw [hback] at hsl
    have hzP : |z - P| ≤ 9e-5 := by
      rw [abs_le]; norm_num; constructor <;> linarith
    have hw2 : Near (powf ((fin y + lit 0.099) / lit 1.099) (1 / lit 0.45)) v 1e-3 := by
      obtain ⟨s, es, hs⟩ := hpz
      refine ⟨s, es, ?_⟩
      have hs2 : |s - z ^ (1 / 0.45 : ℝ)| ≤ 2e-5 := hs.trans (by norm_num at *; linarith)
      have hzv : |z ^ (1 / 0.45 : ℝ) - v| ≤ 2.1e-4 := by norm_num at *; linarith
      have := abs_sub_le s (z ^ (1 / 0.45 : ℝ)) v
      norm_num at *; linarith
    obtain ⟨r, er, hr⟩ := hw2.clamp01 v0 v1
    refine ⟨r, er, ?_⟩
    rw [abs_le] at hr hv ⊢
    norm_num at hr hv ⊢
    constructor <;> linarith

end Fine

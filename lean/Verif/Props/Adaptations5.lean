import Verif.Props.Adaptations4
import Verif.SmallError
import Verif.Binary32
import Mathlib.Analysis.Complex.ExponentialBounds

/-!
# Property C134: the adapting luminance
-/

open Outcome Fl Prog ObjectSpec ConvSpec CombineSpec BlendSpec FormulaSpec AdaptSpec Matrix

namespace Adapt
variable [FloatModel]

theorem zero_le_rnd {r : ℝ} (h : 0 ≤ r) : fin 0 ≤ rnd r := by rw [← FloatModel.rnd_zero]; exact FloatModel.rnd_mono _ _ h

/-- Division by 100 keeps the order of non-negative numbers. -/
theorem hundredth_mono {x y : Fl} (h0 : fin 0 ≤ x) (h : x ≤ y) : x / fin 100 ≤ y / fin 100 := by
  have h100 : (100 : ℝ) ≠ 0 := by norm_num
  have hp : (pinf : Fl) / fin 100 = pinf := by
    show Fl.div pinf (fin 100) = pinf
    simp [Fl.div, infOf]
  rcases x with _ | _ | _ | a
  · simp at h0
  · rcases y with _ | _ | _ | b <;> simp_all
  · simp at h0
  · rcases y with _ | _ | _ | b
    · simp at h
    · rw [hp, fin_div _ _ h100]
      have hr := zero_le_rnd (r := a / 100) (by rw [fin_le] at h0; positivity)
      generalize rnd (a / 100) = z at hr
      cases z <;> simp_all
    · simp at h
    · rw [fin_div _ _ h100, fin_div _ _ h100]
      rw [fin_le] at h
      exact FloatModel.rnd_mono _ _ (by gcongr)

end Adapt

section
variable [FloatModel]

/-- C134, any rounding: a brighter white or a brighter background never lowers the adapting luminance. -/
theorem C134_monotone (L L' b b' : ℝ) (hL : 0 ≤ L) (hb : 0 ≤ b) (h1 : L ≤ L') (h2 : b ≤ b') :
    fin 0 ≤ Adapt.calculate_adapting_luminance (fin L) (fin b) ∧
      Adapt.calculate_adapting_luminance (fin L) (fin b) ≤ Adapt.calculate_adapting_luminance (fin L') (fin b') := by
  unfold Adapt.calculate_adapting_luminance
  simp only [lit_def, fin_mul]
  have h0 : fin 0 ≤ rnd (L * b) := Adapt.zero_le_rnd (by positivity)
  have hm : rnd (L * b) ≤ rnd (L' * b') := FloatModel.rnd_mono _ _ (mul_le_mul h1 h2 hb (hL.trans h1))
  refine ⟨?_, Adapt.hundredth_mono h0 hm⟩
  have := Adapt.hundredth_mono (x := fin 0) (by simp) h0
  rwa [fin_div _ _ (by norm_num), zero_div, FloatModel.rnd_zero] at this

/-- C134, any rounding that keeps whole numbers up to 2^24: with the default factor a whole luminance is returned unchanged. -/
theorem C134_default [IntExact] (n : ℤ) (h : |100 * n| ≤ 2 ^ 24) : Adapt.calculate_adapting_luminance (fin n) (fin 100) = fin n := by
  unfold Adapt.calculate_adapting_luminance
  simp only [lit_def, fin_mul]
  have e : ((n : ℝ) * 100) = ((100 * n : ℤ) : ℝ) := by push_cast; ring
  rw [e, IntExact.rnd_int _ h, fin_div _ _ (by norm_num)]
  have e' : ((100 * n : ℤ) : ℝ) / 100 = ((n : ℤ) : ℝ) := by push_cast; field_simp
  have hn : |n| ≤ 2 ^ 24 := by
    rw [abs_mul] at h
    have := abs_nonneg n
    norm_num at h ⊢
    omega
  rw [e', IntExact.rnd_int _ hn]

/-- C134 with rounding errors: the share of the luminance that the background reflects, up to a relative error of `2^-18`. -/
theorem C134_accuracy [SmallError] (L b : ℝ) (hL : |L| ≤ 1e6) (hb : 0 ≤ b ∧ b ≤ 100) :
    ∃ r, Adapt.calculate_adapting_luminance (fin L) (fin b) = fin r ∧ |r - L * (b / 100)| ≤ |L * (b / 100)| / 2 ^ 18 + 1 / 2 ^ 98 := by
  unfold Adapt.calculate_adapting_luminance
  simp only [lit_def, fin_mul]
  have hLb : |L * b| ≤ 1e8 := by
    rw [abs_mul, abs_of_nonneg hb.1]
    calc |L| * b ≤ 1e6 * 100 := mul_le_mul hL hb.2 hb.1 (by norm_num)
      _ = 1e8 := by norm_num
  obtain ⟨x, e1, h1⟩ := SmallError.rnd_near (L * b) (hLb.trans (by norm_num))
  have hx : |x| ≤ |L * b| + (|L * b| / 2 ^ 20 + 1 / 2 ^ 100) := by
    have := abs_sub_abs_le_abs_sub x (L * b); linarith
  obtain ⟨r, e2, h2⟩ := SmallError.rnd_near (x / 100) (by
    rw [abs_div, abs_of_pos (by norm_num : (0 : ℝ) < 100), div_le_iff₀ (by norm_num)]
    refine hx.trans ?_
    have : |L * b| / 2 ^ 20 ≤ 1e8 := by
      rw [div_le_iff₀ (by norm_num)]; linarith
    have h3 : (1 : ℝ) / 2 ^ 100 ≤ 1 := by norm_num
    have h4 : (1e8 : ℝ) + (1e8 + 1) ≤ 2 ^ 100 * 100 := by norm_num
    linarith)
  refine ⟨r, by rw [e1, fin_div _ _ (by norm_num), e2], ?_⟩
  have a1 : |x / 100| = |x| / 100 := by rw [abs_div, abs_of_pos (by norm_num : (0 : ℝ) < 100)]
  have a2 : |x / 100 - L * (b / 100)| = |x - L * b| / 100 := by
    rw [← abs_of_pos (by norm_num : (0 : ℝ) < 100), ← abs_div, abs_of_pos (by norm_num : (0 : ℝ) < 100)]; congr 1; ring
  have a3 : |L * (b / 100)| = |L * b| / 100 := by
    rw [← mul_div_assoc, abs_div, abs_of_pos (by norm_num : (0 : ℝ) < 100)]
  have tri : |r - L * (b / 100)| ≤ |r - x / 100| + |x / 100 - L * (b / 100)| := abs_sub_le _ _ _
  rw [a1] at h2
  rw [a2] at tri
  rw [a3]
  have hA := abs_nonneg (L * b)
  generalize |L * b| = A at *
  have hu : (1 : ℝ) / 2 ^ 100 > 0 := by positivity
  have h98 : (1 : ℝ) / 2 ^ 98 = 4 * (1 / 2 ^ 100) := by norm_num
  rw [h98]
  generalize (1 : ℝ) / 2 ^ 100 = u at *
  norm_num at h1 h2 hx ⊢
  linarith

variable [ExactModel]

/-- C134 and CAT02: computed with the adapting luminance of a brighter white or background, the method moves the colour further towards the fully adapted one; the degree `e` is the published one
at the share of the luminance, never below 82 % of the surround factor. -/
theorem C134_cat02 (f L L' b b' : ℝ) (hf : 0 ≤ f ∧ f ≤ 1) (hL : 0 ≤ L) (hb : 0 ≤ b) (h1 : L ≤ L') (h2 : b ≤ b') (h : Heap) (i : Nat) (c : Color) (sp u t : Nat) (x s d : Fin 3 → ℝ)
    (hs : Setting h i .xyz c sp u t) (hx : IsXyz c x) (hw : Whites h u t s d) (hn : ∀ j, (cone .cat02).mulVec s j ≠ 0) :
    ∃ y y' e e', Adapts (.cat02 (fin f) (Adapt.calculate_adapting_luminance (fin L) (fin b))) h i t c.alpha y ∧
      Adapts (.cat02 (fin f) (Adapt.calculate_adapting_luminance (fin L') (fin b'))) h i t c.alpha y' ∧
      e = f * (1 - 1 / 3.6 * Real.exp ((-(L * (b / 100)) - 42) / 92)) ∧ e' = f * (1 - 1 / 3.6 * Real.exp ((-(L' * (b' / 100)) - 42) / 92)) ∧
      0.82 * f ≤ e ∧ e ≤ e' ∧ e' ≤ 1 ∧
      (∀ j, |y j - AdaptSpec.clip (e * published .cat02 s d x j + (1 - e) * x j)| ≤ 1e-5 * (e * size (published .cat02 s d x) + (1 - e) * size x)) ∧
      ∀ j, |y' j - AdaptSpec.clip (e' * published .cat02 s d x j + (1 - e') * x j)| ≤ 1e-5 * (e' * size (published .cat02 s d x) + (1 - e') * size x) := by
  have val : ∀ L b : ℝ, Adapt.calculate_adapting_luminance (fin L) (fin b) = fin (L * (b / 100)) := by
    intro L b
    unfold Adapt.calculate_adapting_luminance
    simp only [lit_def, fin_mul, rnd_exact]
    rw [div_exact _ _ (by norm_num), mul_div_assoc]
  have hle : L * (b / 100) ≤ L' * (b' / 100) := mul_le_mul h1 (by linarith) (by positivity) (hL.trans h1)
  have h0 : 0 ≤ L * (b / 100) := by positivity
  have hexp : ∀ l : ℝ, 0 ≤ l → 1 / 3.6 * Real.exp ((-l - 42) / 92) ≤ 0.18 := by
    intro l hl
    have m : Real.exp ((-l - 42) / 92) ≤ Real.exp (-(42 / 92)) := Real.exp_le_exp.mpr (by rw [div_le_iff₀ (by norm_num)]; linarith)
    have k : Real.exp (-(42 / 92)) ≤ 0.648 := by
      rw [Real.exp_neg, inv_le_comm₀ (Real.exp_pos _) (by norm_num)]
      have := Real.quadratic_le_exp_of_nonneg (x := 42 / 92) (by norm_num)
      refine le_trans ?_ this
      norm_num
    have := m.trans k
    linarith
  have hpos : ∀ l : ℝ, 0 ≤ 1 / 3.6 * Real.exp ((-l - 42) / 92) := fun l => by positivity
  have deg : ∀ l : ℝ, 0 ≤ l → degreeCat02 f l = f * (1 - 1 / 3.6 * Real.exp ((-l - 42) / 92)) := by
    intro l hl
    have p := hexp l hl
    have q := hpos l
    unfold degreeCat02
    generalize 1 / 3.6 * Real.exp ((-l - 42) / 92) = z at p q
    rw [min_eq_right (by nlinarith [hf.1, hf.2]), max_eq_right (by have := hf.1; have : 0 ≤ 1 - z := by linarith
                                                                   positivity)]
  obtain ⟨y, y1, y2⟩ := C98_cat02_partial f (L * (b / 100)) h i c sp u t x s d hs hx hw hn
  obtain ⟨y', y1', y2'⟩ := C98_cat02_partial f (L' * (b' / 100)) h i c sp u t x s d hs hx hw hn
  rw [deg _ h0] at y2
  rw [deg _ (h0.trans hle)] at y2'
  refine ⟨y, y', _, _, by rw [val]; exact y1, by rw [val]; exact y1', rfl, rfl, ?_, ?_, ?_, y2, y2'⟩
  · have := hexp _ h0
    nlinarith [hf.1]
  · have m : Real.exp ((-(L' * (b' / 100)) - 42) / 92) ≤ Real.exp ((-(L * (b / 100)) - 42) / 92) := Real.exp_le_exp.mpr (by gcongr)
    have := hf.1
    gcongr
  · have := hpos (L' * (b' / 100))
    nlinarith [hf.1, hf.2]

end

/-- Case: in single precision a white of 250 cd/m² with the default factor, and a rounded share of 20 %. -/
example : letI := Binary32.binary32; Adapt.calculate_adapting_luminance (fin 250) (fin 100) = fin 250 ∧
    ∃ r, Adapt.calculate_adapting_luminance (fin 250.1) (fin 20) = fin r ∧ |r - 50.02| ≤ 0.001 := by
  letI := Binary32.binary32
  haveI := Binary32.binary32_small
  haveI := Binary32.binary32_int
  refine ⟨by simpa using C134_default 250 (by norm_num), ?_⟩
  obtain ⟨r, h1, h2⟩ := C134_accuracy 250.1 20 (by norm_num [abs_of_pos]) (by norm_num)
  refine ⟨r, h1, ?_⟩
  norm_num [abs_of_pos] at h2 ⊢
  linarith

/-- Case: CAT02 in dim surroundings with whites of 100 and 500 cd/m² before a grey background. -/
example [FloatModel] [ExactModel] (w : World) : ∃ y y' e e', Adapts (.cat02 (fin 0.9) (Adapt.calculate_adapting_luminance (fin 100) (fin 20))) (demo2 w (xyzOf ![50, 40, 30]) ![1, 1, 1] ![0.9, 1, 0.8]) 0 1 1 y ∧
    Adapts (.cat02 (fin 0.9) (Adapt.calculate_adapting_luminance (fin 500) (fin 20))) (demo2 w (xyzOf ![50, 40, 30]) ![1, 1, 1] ![0.9, 1, 0.8]) 0 1 1 y' ∧ (0.738 : ℝ) ≤ e ∧ e ≤ e' := by
  obtain ⟨h1, h2, h3⟩ := demo2_ok w ![50, 40, 30] ![1, 1, 1] ![0.9, 1, 0.8] (by intro j; fin_cases j <;> norm_num)
  obtain ⟨y, y', e, e', g1, g2, -, -, g3, g4, -⟩ := C134_cat02 0.9 100 500 20 20 (by norm_num) (by norm_num) (by norm_num) (by norm_num) (by norm_num) _ 0 _ 0 0 1 _ _ _ h1 h2 h3
    fun j => (cone_grey _ j).ne'
  exact ⟨y, y', e, e', g1, g2, by norm_num at g3 ⊢; exact g3, g4⟩

import Verif.Props.AdjustBytes
import Verif.Props.SingleModes

/-!
# C177: compositing and blending 8-bit pixels in single precision

C132 and C133 bound the errors for RGB_DEEP colours.  Here the pixels consist of four bytes: they are converted to RGB_DEEP, combined there and converted back.  The result is a pixel of four bytes again,
next to the values that exact arithmetic gives at `R / 255`, `G / 255`, `B / 255` and `A / 255`.
-/

open Outcome Fl Prog ObjectSpec ConvSpec BlendSpec CombineSpec AdjustSpec Hue

namespace BlendSpec

/-- An RGB_TRUE colour with the 8-bit channels `R`, `G` and `B` and the 8-bit alpha `A`; the class keeps `A / 255`. -/
structure IsPixel8 [FloatModel] (c : Color) (R G B A : ℕ) : Prop where
  bytes : IsBytes c R G B
  alpha : c.malpha = Color.clamp (fin A / 255) 1 0
  opacity : A ≤ 255

end BlendSpec

namespace Pixel8

section
variable [FloatModel] [FineError]

theorem round_near (y : ℝ) : |(roundR y : ℝ) - y| ≤ 1 / 2 := by
  unfold roundR
  split_ifs with h
  · have := Int.floor_le (y + 1 / 2)
    have := Int.lt_floor_add_one (y + 1 / 2)
    rw [abs_le]; constructor <;> linarith
  · have := Int.ceil_lt_add_one (y - 1 / 2)
    have := Int.le_ceil (y - 1 / 2)
    rw [abs_le]; constructor <;> linarith

/-- The nearest 8-bit channel of a number that may lie outside 0..1. -/
theorem back_wide {v : ℝ} (hv : |v| ≤ 2) : ∃ V : ℕ, V ≤ 255 ∧ Color.clamp (Fl.round (fin v * 255)) 255 0 = fin V ∧ |(V : ℝ) - 255 * unit v| ≤ 1 / 2 + 1 / 10000 := by
  have hb : |v * 255| ≤ 510 := by rw [abs_mul, abs_of_pos (by norm_num : (0 : ℝ) < 255)]; linarith
  obtain ⟨y, ey, hy⟩ := FineError.rnd_near (v * 255) (hb.trans (by norm_num))
  have hy2 : |y - v * 255| ≤ 1 / 10000 := hy.trans (by norm_num at *; linarith)
  obtain ⟨V, hV⟩ : ∃ V : ℕ, (V : ℤ) = max (min (roundR y) 255) 0 := ⟨(max (min (roundR y) 255) 0).toNat, Int.toNat_of_nonneg (le_max_right _ _)⟩
  have hV' : (V : ℝ) = max (min (roundR y : ℝ) 255) 0 := by exact_mod_cast congrArg (Int.cast (R := ℝ)) hV
  have hV1 : V ≤ 255 := by
    have : max (min (roundR y) 255) 0 ≤ (255 : ℤ) := max_le (min_le_right _ _) (by norm_num)
    omega
  refine ⟨V, hV1, ?_, ?_⟩
  · simp only [lit_def, zero_def, fin_mul, ey, round_fin, Color.clamp_fin, hV']
  · have e1 : 255 * unit v = max (min (v * 255) 255) 0 := by
      rw [unit, mul_comm, max_mul_of_nonneg _ _ (by norm_num), min_mul_of_nonneg _ _ (by norm_num)]
      norm_num
    rw [e1, hV']
    have h3 : |(roundR y : ℝ) - v * 255| ≤ 1 / 2 + 1 / 10000 := by
      have := abs_sub_le (roundR y : ℝ) y (v * 255)
      linarith [round_near y]
    refine (abs_max_sub_max_le_max _ _ _ _).trans (max_le ((abs_min_sub_min_le_max _ _ _ _).trans (max_le h3 ?_)) ?_) <;> norm_num

/-- The nearest 8-bit alpha. -/
theorem alpha_back {a : ℝ} (a0 : 0 ≤ a) (a1 : a ≤ 1 + 1 / 100000) : ∃ A : ℕ, A ≤ 255 ∧ Fl.round (fin a * 255) = fin A ∧ |(A : ℝ) - 255 * a| ≤ 1 / 2 + 1 / 20000 := by
  obtain ⟨y, ey, hy⟩ := FineError.rnd_near (a * 255) (by rw [abs_of_nonneg (by linarith)]; linarith)
  have hy0 : 0 ≤ y := by
    have := FloatModel.rnd_mono 0 (a * 255) (by linarith)
    rw [FloatModel.rnd_zero, ey] at this
    simpa using this
  rw [abs_of_nonneg (by linarith : 0 ≤ a * 255)] at hy
  have hy2 : |y - a * 255| ≤ 1 / 20000 := hy.trans (by norm_num at *; linarith)
  have hr : roundR y = ⌊y + 1/2⌋ := by rw [roundR, if_pos hy0]
  have r0 : 0 ≤ roundR y := by rw [hr]; exact Int.floor_nonneg.mpr (by linarith)
  have hy3 := abs_le.mp hy2
  have r1 : roundR y ≤ 255 := by
    rw [hr, ← Int.lt_add_one_iff, Int.floor_lt]
    push_cast
    linarith
  obtain ⟨A, hA⟩ := Int.eq_ofNat_of_zero_le r0
  refine ⟨A, by omega, ?_, ?_⟩
  · simp only [lit_def, fin_mul, ey, round_fin, hA, Int.cast_natCast]
  · have := round_near y
    rw [hA] at this
    simp only [Int.cast_natCast] at this
    have := abs_sub_le (A : ℝ) y (a * 255)
    rw [mul_comm 255 a]
    linarith

/-- The alpha of the deep colour of an 8-bit colour. -/
theorem alpha_deep [IntExact] {A : ℕ} (hA : A ≤ 255) : ∃ m a, Color.clamp (fin A / 255) 1 0 = fin m ∧ fin m * 255 / 255 = fin a ∧ 0 ≤ a ∧ a ≤ 1 ∧ |a - A / 255| ≤ 4 / 10 ^ 7 * (A / 255) ∧ (A = 0 → a = 0) ∧ (A = 255 → a = 1) := by
  have r255 : rnd (255 : ℝ) = fin 255 := by simpa using IntExact.rnd_int 255 (by norm_num)
  have r1 : rnd (1 : ℝ) = fin 1 := by simpa using IntExact.rnd_int 1 (by norm_num)
  have mono : ∀ {x y v w : ℝ}, x ≤ y → rnd x = fin v → rnd y = fin w → v ≤ w := by
    intro x y v w h e1 e2
    have := FloatModel.rnd_mono _ _ h
    rw [e1, e2] at this
    simpa using this
  have h1 : (A : ℝ) ≤ 255 := by exact_mod_cast hA
  have h0 : (0 : ℝ) ≤ A := Nat.cast_nonneg _
  obtain ⟨m, em, nm⟩ := FineError.rnd_near ((A : ℝ) / 255) (by rw [abs_of_nonneg (by positivity)]; linarith)
  rw [abs_of_nonneg (by positivity : 0 ≤ (A : ℝ) / 255)] at nm
  have m0 : 0 ≤ m := mono (by positivity) FloatModel.rnd_zero em
  have m1 : m ≤ 1 := mono (by linarith) em r1
  obtain ⟨t, et, nt⟩ := FineError.rnd_near (m * 255) (by rw [abs_of_nonneg (by positivity)]; linarith)
  rw [abs_of_nonneg (by positivity : 0 ≤ m * 255)] at nt
  have t0 : 0 ≤ t := mono (by positivity) FloatModel.rnd_zero et
  have t1 : t ≤ 255 := mono (by linarith) et r255
  obtain ⟨a, ea, na⟩ := FineError.rnd_near (t / 255) (by rw [abs_of_nonneg (by positivity)]; linarith)
  rw [abs_of_nonneg (by positivity : 0 ≤ t / 255)] at na
  have a0 : 0 ≤ a := mono (by positivity) FloatModel.rnd_zero ea
  have a1 : a ≤ 1 := mono (by linarith) ea r1
  have z : A = 0 → a = 0 := by
    rintro rfl
    rw [Nat.cast_zero, zero_div, FloatModel.rnd_zero, fin.injEq] at em
    rw [← em, zero_mul, FloatModel.rnd_zero, fin.injEq] at et
    rw [← et, zero_div, FloatModel.rnd_zero, fin.injEq] at ea
    exact ea.symm
  have o : A = 255 → a = 1 := by
    rintro rfl
    rw [show ((255 : ℕ) : ℝ) / 255 = 1 by norm_num, r1, fin.injEq] at em
    rw [← em, one_mul, r255, fin.injEq] at et
    rw [← et, show (255 : ℝ) / 255 = 1 by norm_num, r1, fin.injEq] at ea
    exact ea.symm
  refine ⟨m, a, ?_, ?_, a0, a1, ?_, z, o⟩
  · rw [lit_def, fin_div _ _ (by norm_num), em]
    simpa only [lit_def] using clamp01 m0 m1
  · rw [lit_def, fin_mul, et, fin_div _ _ (by norm_num), ea]
  · rcases Nat.eq_zero_or_pos A with h | h
    · rw [z h, h]; norm_num
    · have h2 : (1 : ℝ) ≤ A := by exact_mod_cast h
      have nm := abs_le.mp nm
      have nt := abs_le.mp nt
      have na := abs_le.mp na
      norm_num at nm nt na ⊢
      rw [abs_le]
      constructor <;> linarith

/-- The deep colour of an 8-bit pixel. -/
theorem deep [IntExact] {w : World} {c : Color} {R G B A : ℕ} (h : IsPixel8 c R G B A) : ∃ d r g b a, Converts w c .rgbDeep d ∧ IsPixel d r g b a ∧ d.space = c.space ∧
    (fin r = Color.clamp (fin R / 255) 1 0 ∧ fin g = Color.clamp (fin G / 255) 1 0 ∧ fin b = Color.clamp (fin B / 255) 1 0) ∧
    (|r - R / 255| ≤ 12 / 10 ^ 8 ∧ |g - G / 255| ≤ 12 / 10 ^ 8 ∧ |b - B / 255| ≤ 12 / 10 ^ 8) ∧ |a - A / 255| ≤ 4 / 10 ^ 7 * (A / 255) ∧ (A = 255 → a = 1) := by
  obtain ⟨m, a, em, ea, a0, a1, na, -, ho⟩ := alpha_deep h.opacity
  obtain ⟨r, er, lr, nr⟩ := byte_unit h.bytes.red
  obtain ⟨g, eg, lg, ng⟩ := byte_unit h.bytes.green
  obtain ⟨b, eb, lb, nb⟩ := byte_unit h.bytes.blue
  refine ⟨Color.mkRgbDeep (fin R / 255) (fin G / 255) (fin B / 255) (c.alpha / 255) c.space, r, g, b, a, ?_, ⟨⟨⟨rfl, rfl, rfl, rfl, rfl⟩, ?_, lr.1, lr.2, lg.1, lg.2, lb.1, lb.2⟩, ?_, a0, a1⟩, rfl,
    ⟨er.symm, eg.symm, eb.symm⟩, ⟨nr, ng, nb⟩, na, ho⟩
  · rw [converts_iff (s := .rgbTrue) (by simp) (by simp) h.bytes.col]
    have hc := h.bytes.comps
    cases c
    simp only at hc
    subst hc
    change Leaf.rgb_true_to_rgb_deep _ = _
    simp only [Leaf.rgb_true_to_rgb_deep, Conv.get3_0, Conv.get3_1, Conv.get3_2, ok_bind, Color.construct_rgbDeep]
  · simp only [Color.mkRgbDeep, er, eg, eb]
  · have hcls : c.cls = .rgbTrue := h.bytes.col.cls
    simp only [Color.mkRgbDeep, Color.alpha, hcls, Color.scalesAlpha, if_true, h.alpha, em, ea]

/-- The 8-bit pixel of a deep colour. -/
theorem store {w : World} {x y z a : ℝ} (hx : |x| ≤ 2) (hy : |y| ≤ 2) (hz : |z| ≤ 2) (a0 : 0 ≤ a) (a1 : a ≤ 1 + 1 / 100000) (sp : Option Nat) :
    ∃ q X Y Z A, Converts w (obj .rgbDeep x y z (fin a) sp) .rgbTrue q ∧ IsPixel8 q X Y Z A ∧ q.space = sp ∧
    |(X : ℝ) - 255 * unit x| ≤ 1 / 2 + 1 / 10000 ∧ |(Y : ℝ) - 255 * unit y| ≤ 1 / 2 + 1 / 10000 ∧ |(Z : ℝ) - 255 * unit z| ≤ 1 / 2 + 1 / 10000 ∧ |(A : ℝ) - 255 * a| ≤ 1 / 2 + 1 / 20000 := by
  obtain ⟨X, X1, eX, nX⟩ := back_wide hx
  obtain ⟨Y, Y1, eY, nY⟩ := back_wide hy
  obtain ⟨Z, Z1, eZ, nZ⟩ := back_wide hz
  obtain ⟨A, A1, eA, nA⟩ := alpha_back a0 a1
  refine ⟨Color.mkRgbTrue (Fl.round (fin x * 255)) (Fl.round (fin y * 255)) (Fl.round (fin z * 255)) (Fl.round (Color.alpha (obj .rgbDeep x y z (fin a) sp) * 255)) sp, X, Y, Z, A, ?_,
    ⟨⟨⟨rfl, rfl, rfl, rfl, rfl⟩, ?_, X1, Y1, Z1⟩, ?_, A1⟩, rfl, nX, nY, nZ, nA⟩
  · rw [converts_iff (s := .rgbDeep) (by simp) (by simp) ⟨rfl, rfl, rfl, rfl, rfl⟩]
    change Leaf.rgb_deep_to_rgb_true _ = _
    simp only [Leaf.rgb_deep_to_rgb_true, obj_0, obj_1, obj_2, ok_bind, Color.construct_rgbTrue, obj_space]
  · simp only [Color.mkRgbTrue, eX, eY, eZ]
  · have : Color.alpha (obj .rgbDeep x y z (fin a) sp) = fin a := rfl
    simp only [Color.mkRgbTrue, this, eA]

end

/-! ### The table of Porter and Duff -/

/-- The errors of the factors. -/
theorem factors (op : PdOp) {a b a' b' e : ℝ} (e0 : 0 ≤ e) (a0 : 0 ≤ a') (b0 : 0 ≤ b') (ha : |a - a'| ≤ e * a') (hb : |b - b'| ≤ e * b') (ha1 : |a - a'| ≤ 255 * e * (1 - a')) (hb1 : |b - b'| ≤ 255 * e * (1 - b')) :
    |op.Fa a b - op.Fa a' b'| ≤ 255 * e * op.Fa a' b' ∧ |op.Fb a b - op.Fb a' b'| ≤ 255 * e * op.Fb a' b' := by
  have h1 : |(1 - a) - (1 - a')| ≤ 255 * e * (1 - a') := by rwa [show (1 - a) - (1 - a') = -(a - a') by ring, abs_neg]
  have h2 : |(1 - b) - (1 - b')| ≤ 255 * e * (1 - b') := by rwa [show (1 - b) - (1 - b') = -(b - b') by ring, abs_neg]
  have h3 : |a - a'| ≤ 255 * e * a' := ha.trans (by nlinarith [mul_nonneg e0 a0])
  have h4 : |b - b'| ≤ 255 * e * b' := hb.trans (by nlinarith [mul_nonneg e0 b0])
  have h5 : (0 : ℝ) ≤ 255 * e := by linarith
  cases op <;> simp only [PdOp.Fa, PdOp.Fb, sub_self, abs_zero, mul_zero, mul_one, le_refl, true_and, and_true, and_self] <;> first | assumption | exact ⟨by assumption, by assumption⟩

/-- The coverages of two 8-bit pixels are multiples of 1 / 65025. -/
theorem whole (op : PdOp) {A B : ℕ} (hA : A ≤ 255) (hB : B ≤ 255) : ∃ m n : ℕ, (A / 255 : ℝ) * op.Fa (A / 255) (B / 255) = m / 65025 ∧ (B / 255 : ℝ) * op.Fb (A / 255) (B / 255) = n / 65025 := by
  have c1 : ((255 - A : ℕ) : ℝ) = 255 - A := by rw [Nat.cast_sub hA]; norm_num
  have c2 : ((255 - B : ℕ) : ℝ) = 255 - B := by rw [Nat.cast_sub hB]; norm_num
  have k0 : ∀ C : ℕ, (C / 255 : ℝ) * 0 = (0 : ℕ) / 65025 := by intro C; simp
  have k1 : ∀ C : ℕ, (C / 255 : ℝ) * 1 = (255 * C : ℕ) / 65025 := by intro C; push_cast; ring
  have k2 : ∀ C D : ℕ, (C / 255 : ℝ) * (D / 255) = (C * D : ℕ) / 65025 := by intro C D; push_cast; ring
  have k3 : (A / 255 : ℝ) * (1 - B / 255) = (A * (255 - B) : ℕ) / 65025 := by push_cast [c2]; ring
  have k4 : (B / 255 : ℝ) * (1 - A / 255) = (B * (255 - A) : ℕ) / 65025 := by push_cast [c1]; ring
  cases op <;> simp only [PdOp.Fa, PdOp.Fb] <;>
    first
    | exact ⟨_, _, k0 _, k0 _⟩ | exact ⟨_, _, k0 _, k1 _⟩ | exact ⟨_, _, k0 _, k2 _ _⟩ | exact ⟨_, _, k0 _, k4⟩
    | exact ⟨_, _, k1 _, k0 _⟩ | exact ⟨_, _, k1 _, k4⟩ | exact ⟨_, _, k2 _ _, k0 _⟩ | exact ⟨_, _, k2 _ _, k4⟩
    | exact ⟨_, _, k3, k0 _⟩ | exact ⟨_, _, k3, k1 _⟩ | exact ⟨_, _, k3, k2 _ _⟩ | exact ⟨_, _, k3, k4⟩

/-- A product of a number and a factor. -/
theorem product {a a' f f' e : ℝ} (e0 : 0 ≤ e) (e1 : e ≤ 1 / 9000) (a0 : 0 ≤ a') (f0 : 0 ≤ f') (ha : |a - a'| ≤ e / 255 * a') (hf : |f - f'| ≤ e * f') : |a * f - a' * f'| ≤ 1.005 * e * (a' * f') := by
  rw [show a * f - a' * f' = (a - a') * f' + (a - a') * (f - f') + a' * (f - f') by ring]
  refine (abs_add_three _ _ _).trans ?_
  rw [abs_mul, abs_mul, abs_mul, abs_of_nonneg f0, abs_of_nonneg a0]
  have h1 : |a - a'| * f' ≤ e / 255 * a' * f' := mul_le_mul_of_nonneg_right ha f0
  have h2 : |a - a'| * |f - f'| ≤ e / 255 * a' * (e * f') := mul_le_mul ha hf (abs_nonneg _) (by positivity)
  have h3 : a' * |f - f'| ≤ a' * (e * f') := mul_le_mul_of_nonneg_left hf a0
  have h4 : e / 255 * a' * (e * f') ≤ e / 255 * (1 / 9000) * (a' * f') := by
    have : e / 255 * a' * (e * f') = e * (e / 255 * (a' * f')) := by ring
    rw [this]
    have h5 : (0 : ℝ) ≤ e / 255 * (a' * f') := by positivity
    nlinarith [mul_le_mul_of_nonneg_right e1 h5]
  have h6 : (0 : ℝ) ≤ e * (a' * f') := by positivity
  norm_num at h4 ⊢
  nlinarith

/-- A weighted mean is between 0 and 1. -/
theorem mean_range {p q s d x : ℝ} (p0 : 0 ≤ p) (q0 : 0 ≤ q) (hpq : 0 < p + q) (s0 : 0 ≤ s ∧ s ≤ 1) (d0 : 0 ≤ d ∧ d ≤ 1) (hx : x * (p + q) = p * s + q * d) : 0 ≤ x ∧ x ≤ 1 := by
  have h1 := mul_nonneg p0 s0.1
  have h2 := mul_nonneg q0 d0.1
  have h3 := mul_le_mul_of_nonneg_left s0.2 p0
  have h4 := mul_le_mul_of_nonneg_left d0.2 q0
  constructor
  · by_contra hc
    have : x * (p + q) < 0 := mul_neg_of_neg_of_pos (not_le.mp hc) hpq
    linarith
  · by_contra hc
    have : 1 * (p + q) < x * (p + q) := mul_lt_mul_of_pos_right (not_le.mp hc) hpq
    linarith

/-- A weighted mean whose weights and values are slightly wrong. -/
theorem mean {p q p' q' s d s' d' x x' e k : ℝ} (p0 : 0 ≤ p') (q0 : 0 ≤ q') (hpq : 0 < p' + q') (e0 : 0 ≤ e) (e1 : e ≤ 1 / 1000) (hp : |p - p'| ≤ e * p') (hq : |q - q'| ≤ e * q')
    (s0 : 0 ≤ s' ∧ s' ≤ 1) (d0 : 0 ≤ d' ∧ d' ≤ 1) (hs : |s - s'| ≤ k) (hd : |d - d'| ≤ k) (hx : x * (p + q) = p * s + q * d) (hx' : x' * (p' + q') = p' * s' + q' * d') :
    |x - x'| ≤ 1.002 * e + k := by
  have hp2 := abs_le.mp hp
  have hq2 := abs_le.mp hq
  have pp : 0 ≤ p := by nlinarith
  have qq : 0 ≤ q := by nlinarith
  have big : (1 - e) * (p' + q') ≤ p + q := by nlinarith
  have hpos : 0 < p + q := lt_of_lt_of_le (by nlinarith) big
  obtain ⟨x0, x1⟩ := mean_range p0 q0 hpq s0 d0 hx'
  have key : (x - x') * (p + q) = (p - p') * (s' - x') + (q - q') * (d' - x') + (p * (s - s') + q * (d - d')) := by
    linear_combination hx - hx'
  have b1 : |(p - p') * (s' - x')| ≤ e * p' := by
    rw [abs_mul]
    have : |s' - x'| ≤ 1 := abs_le.mpr ⟨by linarith [s0.1], by linarith [s0.2]⟩
    nlinarith [abs_nonneg (p - p'), abs_nonneg (s' - x')]
  have b2 : |(q - q') * (d' - x')| ≤ e * q' := by
    rw [abs_mul]
    have : |d' - x'| ≤ 1 := abs_le.mpr ⟨by linarith [d0.1], by linarith [d0.2]⟩
    nlinarith [abs_nonneg (q - q'), abs_nonneg (d' - x')]
  have b3 : |p * (s - s') + q * (d - d')| ≤ k * (p + q) := by
    refine (abs_add_le _ _).trans ?_
    rw [abs_mul, abs_mul, abs_of_nonneg pp, abs_of_nonneg qq]
    nlinarith [mul_le_mul_of_nonneg_left hs pp, mul_le_mul_of_nonneg_left hd qq]
  have b4 : |(x - x') * (p + q)| ≤ e * p' + e * q' + k * (p + q) := by
    rw [key]
    exact (abs_add_three _ _ _).trans (by linarith)
  rw [abs_mul, abs_of_pos hpos] at b4
  have b5 : e * (p' + q') ≤ 1.002 * e * (p + q) := by
    have : e * (p' + q') ≤ 1.002 * e * ((1 - e) * (p' + q')) := by
      have h : (1 : ℝ) ≤ 1.002 * (1 - e) := by norm_num; linarith
      have h2 : 0 ≤ e * (p' + q') := by positivity
      nlinarith
    refine this.trans (mul_le_mul_of_nonneg_left big (by positivity))
  refine le_of_mul_le_mul_right ?_ hpos
  linarith

/-- The factors are between 0 and 1. -/
theorem factor_range (op : PdOp) {a b : ℝ} (a0 : 0 ≤ a ∧ a ≤ 1) (b0 : 0 ≤ b ∧ b ≤ 1) : 0 ≤ op.Fa a b ∧ 0 ≤ op.Fb a b := by
  obtain ⟨a0, a1⟩ := a0
  obtain ⟨b0, b1⟩ := b0
  cases op <;> simp [PdOp.Fa, PdOp.Fb, *]

/-- The error of the complement of an 8-bit alpha. -/
theorem rest {A : ℕ} {a : ℝ} (hA : A ≤ 255) (na : |a - A / 255| ≤ 4 / 10 ^ 7 * (A / 255)) (ho : A = 255 → a = 1) : |a - A / 255| ≤ 255 * (4 / 10 ^ 7) * (1 - A / 255) := by
  by_cases h : A = 255
  · rw [ho h, h]; norm_num
  · have h1 : (A : ℝ) ≤ 254 := by exact_mod_cast (by omega : A ≤ 254)
    refine na.trans ?_
    norm_num
    linarith

theorem unit_in {x y e : ℝ} (hy : 0 ≤ y ∧ y ≤ 1) (h : |x - y| ≤ e) : |unit x - y| ≤ e := by
  have : unit y = y := by simp [unit, hy.1, hy.2]
  have := unit_close x y
  simp_all only
  linarith

end Pixel8

section
variable [FloatModel] [FineError] [IntExact]

/-! ## C177: Porter-Duff operators on 8-bit pixels -/

set_option maxHeartbeats 1600000 in
/-- C177: every Porter-Duff operator on two pixels of four bytes gives a pixel of four bytes in the same colour space.  Alpha and channels are within 1/2 + 1/30 of what the table says about
`SA / 255`, ..., so they are those values rounded to bytes, up to ties.  Where the table says fully transparent, all four bytes are 0. -/
theorem C177_table (op : PdOp) (w : World) (s d : Color) (S0 S1 S2 SA D0 D1 D2 DA : ℕ) (hs : IsPixel8 s S0 S1 S2 SA) (hd : IsPixel8 d D0 D1 D2 DA) (hsp : s.space = d.space)
    (a b : ℝ) (ha : a = SA / 255) (hb : b = DA / 255) (α : ℝ) (hα : α = a * op.Fa a b + b * op.Fb a b) (x0 x1 x2 : ℝ)
    (u0 : Unmultiplied α (a * op.Fa a b * (S0 / 255) + b * op.Fb a b * (D0 / 255)) x0) (u1 : Unmultiplied α (a * op.Fa a b * (S1 / 255) + b * op.Fb a b * (D1 / 255)) x1)
    (u2 : Unmultiplied α (a * op.Fa a b * (S2 / 255) + b * op.Fb a b * (D2 / 255)) x2) :
    ∃ r X0 X1 X2 A, Yields op.run w s d r ∧ IsPixel8 r X0 X1 X2 A ∧ r.space = s.space ∧ |(A : ℝ) - 255 * α| ≤ 1 / 2 + 1 / 30 ∧
      |(X0 : ℝ) - 255 * x0| ≤ 1 / 2 + 1 / 30 ∧ |(X1 : ℝ) - 255 * x1| ≤ 1 / 2 + 1 / 30 ∧ |(X2 : ℝ) - 255 * x2| ≤ 1 / 2 + 1 / 30 ∧
      (α = 0 → X0 = 0 ∧ X1 = 0 ∧ X2 = 0 ∧ A = 0) := by
  obtain ⟨s', s0, s1, s2, sa, vs, ps, sps, -, ⟨ns0, ns1, ns2⟩, nsa, hso⟩ := Pixel8.deep (w := w) hs
  obtain ⟨d', d0, d1, d2, da, vd, pd, spd, -, ⟨nd0, nd1, nd2⟩, nda, hdo⟩ := Pixel8.deep (w := w) hd
  have ca : ∀ {C : ℕ}, C ≤ 255 → (0 : ℝ) ≤ C / 255 ∧ (C / 255 : ℝ) ≤ 1 := by
    intro C hC
    have : (C : ℝ) ≤ 255 := by exact_mod_cast hC
    exact ⟨by positivity, by linarith⟩
  have a01 := ca hs.opacity
  have b01 := ca hd.opacity
  obtain ⟨fa, fb⟩ := Pixel8.factors op (by norm_num) a01.1 b01.1 nsa nda (Pixel8.rest hs.opacity nsa hso) (Pixel8.rest hd.opacity nda hdo)
  obtain ⟨m, n, em, en⟩ := Pixel8.whole op hs.opacity hd.opacity
  obtain ⟨f0, g0⟩ := Pixel8.factor_range op a01 b01
  rw [← ha] at a01 nsa fa fb em en f0 g0
  rw [← hb] at b01 nda fa fb em en f0 g0
  have np := Pixel8.product (e := 255 * (4 / 10 ^ 7)) (by norm_num) (by norm_num) a01.1 f0 (nsa.trans (by norm_num)) fa
  have nq := Pixel8.product (e := 255 * (4 / 10 ^ 7)) (by norm_num) (by norm_num) b01.1 g0 (nda.trans (by norm_num)) fb
  have p0 : 0 ≤ a * op.Fa a b := mul_nonneg a01.1 f0
  have q0 : 0 ≤ b * op.Fb a b := mul_nonneg b01.1 g0
  have rng := Blend.alphaOf_range (Blend.usOf op) (Blend.udOf op) (Blend.ubOf op) ps.a0 ps.a1 pd.a0 pd.a1
  have tab := Blend.alphaOf_table op sa da
  have rng' := Blend.alphaOf_range (Blend.usOf op) (Blend.udOf op) (Blend.ubOf op) a01.1 a01.2 b01.1 b01.2
  have tab' := Blend.alphaOf_table op a b
  generalize hp : sa * op.Fa sa da = p at *
  generalize hq : da * op.Fb sa da = q at *
  generalize hp' : a * op.Fa a b = p' at *
  generalize hq' : b * op.Fb a b = q' at *
  rw [tab] at rng
  rw [tab', ← hα] at rng'
  have np2 := abs_le.mp np
  have nq2 := abs_le.mp nq
  have hβ : |(p + q) - α| ≤ 1.03 / 10 ^ 4 * α := by
    rw [hα, abs_le]
    norm_num at np2 nq2 ⊢
    constructor <;> linarith
  have hβ2 := abs_le.mp hβ
  have cases' : α = 0 ∨ 1 / 65025 ≤ α := by
    rw [hα, em, en]
    rcases Nat.eq_zero_or_pos (m + n) with h | h
    · left
      have h1 : m = 0 := by omega
      have h2 : n = 0 := by omega
      rw [h1, h2]; norm_num
    · right
      have : (1 : ℝ) ≤ m + n := by exact_mod_cast h
      linarith
  have pp : 0 ≤ p := by norm_num at np2; nlinarith
  have qq : 0 ≤ q := by norm_num at nq2; nlinarith
  have un : ∀ v u : ℝ, Unmultiplied (p + q) (p * v + q * u) ((p * v + q * u) / (p + q)) := by
    intro v u
    refine ⟨?_, fun h => by rw [h, div_zero]⟩
    by_cases h : p + q = 0
    · have h1 : p = 0 := by linarith
      have h2 : q = 0 := by linarith
      simp [h1, h2]
    · exact div_mul_cancel₀ _ h
  obtain ⟨r0, r1, r2, ra, hy, nra, n0, n1, n2, hz⟩ := C132_table op w s' d' s0 s1 s2 sa d0 d1 d2 da ps pd (by rw [sps, spd, hsp]) (p + q) (by rw [hp, hq])
    (by
      rcases cases' with h | h
      · left; rw [h] at hβ; simpa using hβ
      · right; norm_num at hβ2 ⊢; linarith) _ _ _ (by rw [hp, hq]; exact un s0 d0) (by rw [hp, hq]; exact un s1 d1) (by rw [hp, hq]; exact un s2 d2)
  have nra2 := abs_le.mp nra
  have ra0 : 0 ≤ ra := by norm_num at nra2; linarith
  have ra1 : ra ≤ 1 + 1 / 100000 := by norm_num at nra2; linarith
  have chan : ∀ {S D : ℕ} {v u x y : ℝ}, S ≤ 255 → D ≤ 255 → |v - S / 255| ≤ 12 / 10 ^ 8 → |u - D / 255| ≤ 12 / 10 ^ 8 → Unmultiplied α (p' * (S / 255) + q' * (D / 255)) x →
      |y - (p * v + q * u) / (p + q)| ≤ 1 / 70000 → (α = 0 → y = 0) → (0 ≤ x ∧ x ≤ 1) ∧ |y - x| ≤ 1.2 / 10 ^ 4 := by
    intro S D v u x y hS hD nv nu hx ny hy
    rcases cases' with h | h
    · rw [hy h, hx.2 h]; norm_num
    · have h' : 0 < p' + q' := by rw [← hα]; linarith
      have hx1 := hx.1
      rw [hα] at hx1
      have cS := ca hS
      have cD := ca hD
      have mm := Pixel8.mean p0 q0 h' (by norm_num) (by norm_num) np nq cS cD nv nu (un v u).1 hx1
      refine ⟨⟨?_, ?_⟩, ?_⟩
      · exact (Pixel8.mean_range p0 q0 h' cS cD hx1).1
      · exact (Pixel8.mean_range p0 q0 h' cS cD hx1).2
      · have := abs_sub_le y ((p * v + q * u) / (p + q)) x
        norm_num at mm ny ⊢
        linarith
  have hz' : α = 0 → r0 = 0 ∧ r1 = 0 ∧ r2 = 0 := fun h => hz (by rw [h] at hβ; simpa using hβ)
  obtain ⟨l0, k0⟩ := chan hs.bytes.red hd.bytes.red ns0 nd0 u0 n0 (fun h => (hz' h).1)
  obtain ⟨l1, k1⟩ := chan hs.bytes.green hd.bytes.green ns1 nd1 u1 n1 (fun h => (hz' h).2.1)
  obtain ⟨l2, k2⟩ := chan hs.bytes.blue hd.bytes.blue ns2 nd2 u2 n2 (fun h => (hz' h).2.2)
  have small : ∀ {y x : ℝ}, (0 ≤ x ∧ x ≤ 1) → |y - x| ≤ 1.2 / 10 ^ 4 → |y| ≤ 2 := by
    intro y x hx h
    have := abs_le.mp h
    norm_num at this
    exact abs_le.mpr ⟨by linarith, by linarith⟩
  obtain ⟨r, X0, X1, X2, A, vr, pr, spr, m0, m1, m2, mA⟩ := Pixel8.store (w := w) (small l0 k0) (small l1 k1) (small l2 k2) ra0 ra1 s'.space
  have fin' : ∀ {X : ℕ} {y x : ℝ}, (0 ≤ x ∧ x ≤ 1) → |y - x| ≤ 1.2 / 10 ^ 4 → |(X : ℝ) - 255 * unit y| ≤ 1 / 2 + 1 / 10000 → |(X : ℝ) - 255 * x| ≤ 1 / 2 + 1 / 30 := by
    intro X y x hx h h2
    have h3 := abs_le.mp (Pixel8.unit_in hx h)
    have h2 := abs_le.mp h2
    norm_num at h3
    exact abs_le.mpr ⟨by linarith, by linarith⟩
  have hA : |(A : ℝ) - 255 * α| ≤ 1 / 2 + 1 / 30 := by
    have := abs_le.mp mA
    norm_num at this nra2 hβ2
    exact abs_le.mpr ⟨by linarith, by linarith⟩
  have q0' := fin' l0 k0 m0
  have q1' := fin' l1 k1 m1
  have q2' := fin' l2 k2 m2
  refine ⟨r, X0, X1, X2, A, C51_any_type op w .rgbTrue .rgbTrue (by simp) (by simp) s d s' d' _ r hs.bytes.col hd.bytes.col hsp vs vd hy vr, pr, by rw [spr, sps], hA, q0', q1', q2', ?_⟩
  intro h
  rw [u0.2 h] at q0'
  rw [u1.2 h] at q1'
  rw [u2.2 h] at q2'
  rw [h] at hA
  have nil : ∀ {X : ℕ}, |(X : ℝ) - 255 * 0| ≤ 1 / 2 + 1 / 30 → X = 0 := by
    intro X hX
    have h1 := (abs_le.mp hX).2
    have : (X : ℝ) < 1 := by norm_num at h1; linarith
    exact_mod_cast (by exact_mod_cast this : X < 1) |> Nat.lt_one_iff.mp
  exact ⟨nil q0', nil q1', nil q2', nil hA⟩

/-- A byte within 1/2 + 1/30 of a byte is that byte. -/
theorem Pixel8.exact {X N : ℕ} {x : ℝ} (h : |(X : ℝ) - 255 * x| ≤ 1 / 2 + 1 / 30) (hx : x = N / 255) : X = N := by
  rw [hx, mul_div_cancel₀ _ (by norm_num : (255 : ℝ) ≠ 0)] at h
  have h1 : |((X : ℤ) - N : ℤ)| < 1 := by
    have : |(((X : ℤ) - N : ℤ) : ℝ)| < 1 := by push_cast; exact h.trans_lt (by norm_num)
    exact_mod_cast this
  have := Int.abs_lt_one_iff.mp h1
  omega

/-- C177: where only the source contributes (`src`, `in`, `out`, an opaque source over anything, anything over a transparent pixel) the result has exactly the channels of the source,
whatever the alpha values, unless it is fully transparent.  If the table says a whole byte for alpha, then alpha is that byte. -/
theorem C177_source (op : PdOp) (w : World) (s d : Color) (S0 S1 S2 SA D0 D1 D2 DA : ℕ) (hs : IsPixel8 s S0 S1 S2 SA) (hd : IsPixel8 d D0 D1 D2 DA) (hsp : s.space = d.space)
    (a b : ℝ) (ha : a = SA / 255) (hb : b = DA / 255) (hq : b * op.Fb a b = 0) (hp : a * op.Fa a b ≠ 0) :
    ∃ r A, Yields op.run w s d r ∧ IsPixel8 r S0 S1 S2 A ∧ r.space = s.space ∧ |(A : ℝ) - 255 * (a * op.Fa a b)| ≤ 1 / 2 + 1 / 30 ∧ ∀ N : ℕ, 255 * (a * op.Fa a b) = N → A = N := by
  have un : ∀ S D : ℕ, Unmultiplied (a * op.Fa a b) (a * op.Fa a b * (S / 255) + b * op.Fb a b * (D / 255)) (S / 255) := by
    intro S D
    exact ⟨by rw [hq]; ring, fun h => absurd h hp⟩
  obtain ⟨r, X0, X1, X2, A, hy, pr, sp, nA, n0, n1, n2, -⟩ := C177_table op w s d S0 S1 S2 SA D0 D1 D2 DA hs hd hsp a b ha hb (a * op.Fa a b) (by rw [hq, add_zero]) _ _ _ (un S0 D0) (un S1 D1) (un S2 D2)
  rw [Pixel8.exact n0 rfl, Pixel8.exact n1 rfl, Pixel8.exact n2 rfl] at pr
  exact ⟨r, A, hy, pr, sp, nA, fun N hN => Pixel8.exact nA (by rw [← hN]; ring)⟩

/-- C177: an opaque pixel over any pixel is exactly that opaque pixel. -/
theorem C177_opaque_over (w : World) (s d : Color) (S0 S1 S2 D0 D1 D2 DA : ℕ) (hs : IsPixel8 s S0 S1 S2 255) (hd : IsPixel8 d D0 D1 D2 DA) (hsp : s.space = d.space) :
    ∃ r, Yields PdOp.over.run w s d r ∧ IsPixel8 r S0 S1 S2 255 ∧ r.space = s.space := by
  obtain ⟨r, A, hy, pr, sp, -, h⟩ := C177_source .over w s d S0 S1 S2 255 D0 D1 D2 DA hs hd hsp 1 (DA / 255) (by norm_num) rfl (by simp [PdOp.Fb]) (by simp [PdOp.Fa])
  rw [h 255 (by norm_num [PdOp.Fa])] at pr
  exact ⟨r, hy, pr, sp⟩

/-- C177: every operator on two pixels of the same channels gives those channels, unless the result is fully transparent. -/
theorem C177_same (op : PdOp) (w : World) (s d : Color) (C0 C1 C2 SA DA : ℕ) (hs : IsPixel8 s C0 C1 C2 SA) (hd : IsPixel8 d C0 C1 C2 DA) (hsp : s.space = d.space)
    (α : ℝ) (hα : α = SA / 255 * op.Fa (SA / 255) (DA / 255) + DA / 255 * op.Fb (SA / 255) (DA / 255)) (h0 : α ≠ 0) :
    ∃ r A, Yields op.run w s d r ∧ IsPixel8 r C0 C1 C2 A ∧ |(A : ℝ) - 255 * α| ≤ 1 / 2 + 1 / 30 := by
  have un : ∀ C : ℕ, Unmultiplied α (SA / 255 * op.Fa (SA / 255) (DA / 255) * (C / 255) + DA / 255 * op.Fb (SA / 255) (DA / 255) * (C / 255)) (C / 255) := by
    intro C
    exact ⟨by rw [hα]; ring, fun h => absurd h h0⟩
  obtain ⟨r, X0, X1, X2, A, hy, pr, -, nA, n0, n1, n2, -⟩ := C177_table op w s d C0 C1 C2 SA C0 C1 C2 DA hs hd hsp _ _ rfl rfl α hα _ _ _ (un C0) (un C1) (un C2)
  rw [Pixel8.exact n0 rfl, Pixel8.exact n1 rfl, Pixel8.exact n2 rfl] at pr
  exact ⟨r, A, hy, pr, nA⟩

/-- C177: a pixel atop another has exactly the alpha of the other one, and its channels lie between the channels of the two, up to the last step of a byte. -/
theorem C177_atop (w : World) (s d : Color) (S0 S1 S2 SA D0 D1 D2 DA : ℕ) (hs : IsPixel8 s S0 S1 S2 SA) (hd : IsPixel8 d D0 D1 D2 DA) (hsp : s.space = d.space) :
    ∃ r X0 X1 X2, Yields PdOp.atop.run w s d r ∧ IsPixel8 r X0 X1 X2 DA ∧ (DA ≠ 0 → |(X0 : ℝ) - (SA / 255 * S0 + (1 - SA / 255) * D0)| ≤ 1 / 2 + 1 / 30 ∧
      |(X1 : ℝ) - (SA / 255 * S1 + (1 - SA / 255) * D1)| ≤ 1 / 2 + 1 / 30 ∧ |(X2 : ℝ) - (SA / 255 * S2 + (1 - SA / 255) * D2)| ≤ 1 / 2 + 1 / 30) := by
  classical
  have hDA : (DA / 255 : ℝ) = 0 ↔ DA = 0 := by
    rw [div_eq_zero_iff]; norm_num
  have un : ∀ S D : ℕ, Unmultiplied (DA / 255 : ℝ) (SA / 255 * PdOp.atop.Fa (SA / 255) (DA / 255) * (S / 255) + DA / 255 * PdOp.atop.Fb (SA / 255) (DA / 255) * (D / 255))
      (if DA = 0 then 0 else (SA / 255 * S + (1 - SA / 255) * D) / 255) := by
    intro S D
    by_cases h : DA = 0
    · simp [h, Unmultiplied, PdOp.Fa, PdOp.Fb]
    · rw [if_neg h]
      exact ⟨by simp only [PdOp.Fa, PdOp.Fb]; ring, fun h' => absurd (hDA.mp h') h⟩
  obtain ⟨r, X0, X1, X2, A, hy, pr, -, nA, n0, n1, n2, -⟩ := C177_table .atop w s d S0 S1 S2 SA D0 D1 D2 DA hs hd hsp _ _ rfl rfl (DA / 255) (by simp only [PdOp.Fa, PdOp.Fb]; ring) _ _ _
    (un S0 D0) (un S1 D1) (un S2 D2)
  rw [Pixel8.exact nA rfl] at pr
  refine ⟨r, X0, X1, X2, hy, pr, fun h => ?_⟩
  rw [if_neg h, mul_div_cancel₀ _ (by norm_num : (255 : ℝ) ≠ 0)] at n0 n1 n2
  exact ⟨n0, n1, n2⟩

end

/-- A pixel of four bytes as the constructor makes it. -/
theorem isPixel8_mk [FloatModel] (R G B A : ℕ) (hR : R ≤ 255) (hG : G ≤ 255) (hB : B ≤ 255) (hA : A ≤ 255) (sp : Option Nat) :
    IsPixel8 (Color.mkRgbTrue (fin R) (fin G) (fin B) (fin A) sp) R G B A := by
  have lim : ∀ {n : ℕ}, n ≤ 255 → Color.clamp (fin n) 255 0 = fin n := by
    intro n hn
    have : (n : ℝ) ≤ 255 := by exact_mod_cast hn
    rw [lit_def, zero_def, Color.clamp_fin, min_eq_left this, max_eq_left (Nat.cast_nonneg _)]
  refine ⟨⟨⟨rfl, rfl, rfl, rfl, rfl⟩, ?_, hR, hG, hB⟩, rfl, hA⟩
  simp only [Color.mkRgbTrue, lim hR, lim hG, lim hB]

/-- Case: in single precision, red of alpha 128 over opaque white is (255, 127, 127), opaque. -/
example (w : World) : letI := Binary32.binary32
    ∃ r, Yields PdOp.over.run w (Color.mkRgbTrue (fin (255 : ℕ)) (fin (0 : ℕ)) (fin (0 : ℕ)) (fin (128 : ℕ)) none) (Color.mkRgbTrue (fin (255 : ℕ)) (fin (255 : ℕ)) (fin (255 : ℕ)) (fin (255 : ℕ)) none) r ∧
      IsPixel8 r 255 127 127 255 := by
  letI := Binary32.binary32
  haveI := Binary32.binary32_fine
  haveI := Binary32.binary32_int
  obtain ⟨r, X0, X1, X2, A, hy, pr, -, nA, n0, n1, n2, -⟩ := C177_table .over w _ _ 255 0 0 128 255 255 255 255 (isPixel8_mk 255 0 0 128 (by norm_num) (by norm_num) (by norm_num) (by norm_num) none)
    (isPixel8_mk 255 255 255 255 (by norm_num) (by norm_num) (by norm_num) (by norm_num) none) rfl (128 / 255) 1 (by norm_num) (by norm_num) 1 (by norm_num [PdOp.Fa, PdOp.Fb])
    1 (127 / 255) (127 / 255) ⟨by norm_num [PdOp.Fa, PdOp.Fb], by norm_num⟩ ⟨by norm_num [PdOp.Fa, PdOp.Fb], by norm_num⟩ ⟨by norm_num [PdOp.Fa, PdOp.Fb], by norm_num⟩
  rw [Pixel8.exact (N := 255) nA (by norm_num), Pixel8.exact (N := 255) n0 (by norm_num), Pixel8.exact (N := 127) n1 (by norm_num), Pixel8.exact (N := 127) n2 (by norm_num)] at pr
  exact ⟨r, hy, pr⟩

/-- Case: in single precision, the part of a translucent pixel inside another one has the channels of the first. -/
example (w : World) : letI := Binary32.binary32
    ∃ r A, Yields PdOp.in_.run w (Color.mkRgbTrue (fin (12 : ℕ)) (fin (34 : ℕ)) (fin (56 : ℕ)) (fin (3 : ℕ)) none) (Color.mkRgbTrue (fin (200 : ℕ)) (fin (100 : ℕ)) (fin (7 : ℕ)) (fin (85 : ℕ)) none) r ∧
      IsPixel8 r 12 34 56 A ∧ A = 1 := by
  letI := Binary32.binary32
  haveI := Binary32.binary32_fine
  haveI := Binary32.binary32_int
  obtain ⟨r, A, hy, pr, -, -, h⟩ := C177_source .in_ w _ _ 12 34 56 3 200 100 7 85 (isPixel8_mk 12 34 56 3 (by norm_num) (by norm_num) (by norm_num) (by norm_num) none)
    (isPixel8_mk 200 100 7 85 (by norm_num) (by norm_num) (by norm_num) (by norm_num) none) rfl _ _ rfl rfl (by simp [PdOp.Fb]) (by norm_num [PdOp.Fa])
  exact ⟨r, A, hy, pr, h 1 (by norm_num [PdOp.Fa])⟩

/-- Case: in single precision, an opaque pixel over a translucent one. -/
example (w : World) : letI := Binary32.binary32
    ∃ r, Yields PdOp.over.run w (Color.mkRgbTrue (fin (12 : ℕ)) (fin (34 : ℕ)) (fin (56 : ℕ)) (fin (255 : ℕ)) none) (Color.mkRgbTrue (fin (200 : ℕ)) (fin (100 : ℕ)) (fin (7 : ℕ)) (fin (77 : ℕ)) none) r ∧
      IsPixel8 r 12 34 56 255 := by
  letI := Binary32.binary32
  haveI := Binary32.binary32_fine
  haveI := Binary32.binary32_int
  obtain ⟨r, hy, pr, -⟩ := C177_opaque_over w _ _ 12 34 56 200 100 7 77 (isPixel8_mk 12 34 56 255 (by norm_num) (by norm_num) (by norm_num) (by norm_num) none)
    (isPixel8_mk 200 100 7 77 (by norm_num) (by norm_num) (by norm_num) (by norm_num) none) rfl
  exact ⟨r, hy, pr⟩

/-- Case: in single precision, a translucent pixel atop and exclusive or with a pixel of the same channels. -/
example (w : World) : letI := Binary32.binary32
    (∃ r A, Yields PdOp.x_or.run w (Color.mkRgbTrue (fin (12 : ℕ)) (fin (34 : ℕ)) (fin (56 : ℕ)) (fin (99 : ℕ)) none) (Color.mkRgbTrue (fin (12 : ℕ)) (fin (34 : ℕ)) (fin (56 : ℕ)) (fin (77 : ℕ)) none) r ∧
      IsPixel8 r 12 34 56 A) ∧
    ∃ r X0 X1 X2, Yields PdOp.atop.run w (Color.mkRgbTrue (fin (12 : ℕ)) (fin (34 : ℕ)) (fin (56 : ℕ)) (fin (99 : ℕ)) none) (Color.mkRgbTrue (fin (200 : ℕ)) (fin (100 : ℕ)) (fin (7 : ℕ)) (fin (77 : ℕ)) none) r ∧
      IsPixel8 r X0 X1 X2 77 := by
  letI := Binary32.binary32
  haveI := Binary32.binary32_fine
  haveI := Binary32.binary32_int
  have h1 := isPixel8_mk 12 34 56 99 (by norm_num) (by norm_num) (by norm_num) (by norm_num) none
  obtain ⟨r, A, hy, pr, -⟩ := C177_same .x_or w _ _ 12 34 56 99 77 h1 (isPixel8_mk 12 34 56 77 (by norm_num) (by norm_num) (by norm_num) (by norm_num) none) rfl _ rfl (by norm_num [PdOp.Fa, PdOp.Fb])
  obtain ⟨r', X0, X1, X2, hy', pr', -⟩ := C177_atop w _ _ 12 34 56 99 200 100 7 77 h1 (isPixel8_mk 200 100 7 77 (by norm_num) (by norm_num) (by norm_num) (by norm_num) none) rfl
  exact ⟨⟨r, A, hy, pr⟩, r', X0, X1, X2, hy', pr'⟩

import Verif.Cie00Number
import Verif.Props.SingleCie94

/-!
# CIEDE2000 differences in single precision (C173)

The rotation term of the formula uses `exp(-((H - 275) / 25)²)`; the code leaves out the minus sign.  Sixty times the exponential of the square overflows in `float` for mean hues up to 45 degrees,
and the sine of infinity is NaN.
-/

open Outcome Fl Prog ObjectSpec ConvSpec BlendSpec DistSpec CombineSpec

section

/-- C173 fails: in binary32 the CIEDE2000 difference of two colours in the quadrant from red to yellow is NaN, for all parameters, if the sum of their hue angles is at most 90 degrees.
The `a` components are assumed to be `float` numbers. -/
theorem C173_violated (w : World) (p q : Color) (l a b l' a' b' : ℝ) (kL k1 k2 kC kH : Fl) : letI := Binary32.binary32
    ∀ (_ : Valid w .lab p) (_ : Valid w .lab q) (_ : View w p .lab l a b) (_ : View w q .lab l' a' b') (_ : rnd a = fin a) (_ : rnd a' = fin a') (_ : 0 ≤ a) (_ : 0 ≤ b) (_ : 0 ≤ a') (_ : 0 ≤ b')
      (_ : hueAngle a b + hueAngle a' b' ≤ 90), Measures (Distance.cielab_delta_e_cie00 kL k1 k2 kC kH) w p q .nan := by
  letI := Binary32.binary32
  intro hp hq vp vq ea ea' a0 b0 a0' b0' hs
  obtain ⟨l1, a1, b1, vp', r1, r2, r3⟩ := view_of_valid (by simp) rfl hp
  obtain ⟨rfl, rfl, rfl⟩ := view_unique (by simp) hp.def_ hp.col vp' vp
  obtain ⟨l2, a2, b2, vq', s1, s2, s3⟩ := view_of_valid (by simp) rfl hq
  obtain ⟨rfl, rfl, rfl⟩ := view_unique (by simp) hq.def_ hq.col vq' vq
  have up : ∀ {x : ℝ} {i : ℕ}, i = 1 ∨ i = 2 → (channelRange .lab i).1 ≤ x ∧ x ≤ (channelRange .lab i).2 → x ≤ 128 := by
    rintro x i (rfl | rfl) h <;> simpa [channelRange] using h.2
  have ang : ∀ x y : ℝ, 0 ≤ y → hueAngle x y = Complex.arg ⟨x, y⟩ / Real.pi * 180 := fun x y hy => if_pos (Complex.arg_nonneg_iff.mpr hy)
  rw [ang _ _ b0, ang _ _ b0'] at hs
  exact measures_of (by simp) hp hq vp vq fun p q hp hq =>
    Cie00Near.cie00_nan kL k1 k2 kC kH hp hq ea ea' ⟨a0, up (.inl rfl) r2⟩ ⟨b0, up (.inr rfl) r3⟩ ⟨a0', up (.inl rfl) s2⟩ ⟨b0', up (.inr rfl) s3⟩ hs

/-- C173 fails for all greys: in binary32 the CIEDE2000 difference of any two greys, such as black and white, is NaN for all parameters. -/
theorem C173_grey_violated (w : World) (p q : Color) (l l' : ℝ) (kL k1 k2 kC kH : Fl) : letI := Binary32.binary32
    ∀ (_ : Valid w .lab p) (_ : Valid w .lab q) (_ : View w p .lab l 0 0) (_ : View w q .lab l' 0 0), Measures (Distance.cielab_delta_e_cie00 kL k1 k2 kC kH) w p q .nan := by
  letI := Binary32.binary32
  intro hp hq vp vq
  have z : hueAngle 0 0 = 0 := by
    have : (⟨0, 0⟩ : ℂ) = 0 := rfl
    simp [hueAngle, this]
  exact C173_violated w p q l 0 0 l' 0 0 kL k1 k2 kC kH hp hq vp vq FloatModel.rnd_zero FloatModel.rnd_zero le_rfl le_rfl le_rfl le_rfl (by rw [z]; norm_num)

/-- C173 for colours from green to blue (`a` not positive, no greys): in binary32 the CIEDE2000 difference is a number if the lightness difference, divided by the largest weight it can have,
is at least about a thirtieth of the sum of the chromas. -/
theorem C173_partial (w : World) (p q : Color) (l a b l' a' b' kL k1 k2 kC kH : ℝ) (h0 : 1 ≤ kL ∧ kL ≤ 100) (h1 : 0 ≤ k1 ∧ k1 ≤ 1) (h2 : 0 ≤ k2 ∧ k2 ≤ 1) (h3 : 1 ≤ kC ∧ kC ≤ 100)
    (h4 : 1 ≤ kH ∧ kH ≤ 100) : letI := Binary32.binary32
    ∀ (_ : Valid w .lab p) (_ : Valid w .lab q) (_ : View w p .lab l a b) (_ : View w q .lab l' a' b') (_ : 0 ≤ l ∧ l ≤ 100) (_ : 0 ≤ l' ∧ l' ≤ 100)
      (_ : rnd a = fin a) (_ : rnd a' = fin a') (_ : a ≤ 0) (_ : a' ≤ 0)
      (_ : a ≠ 0 ∨ b ≠ 0) (_ : a' ≠ 0 ∨ b' ≠ 0) (_ : (chromaOf a b + chromaOf a' b') ^ 2 / 1000 + 1 / 100 ≤ ((l - l') / (kL * (1 + 51 * k2))) ^ 2),
      ∃ d : ℝ, Measures (Distance.cielab_delta_e_cie00 (fin kL) (fin k1) (fin k2) (fin kC) (fin kH)) w p q (fin d) ∧ 0 ≤ d := by
  letI := Binary32.binary32
  intro hp hq vp vq hl hl' ea ea' a0 a0' hn hn' hh
  obtain ⟨l1, a1, b1, vp', r1, r2, r3⟩ := view_of_valid (by simp) rfl hp
  obtain ⟨rfl, rfl, rfl⟩ := view_unique (by simp) hp.def_ hp.col vp' vp
  obtain ⟨l2, a2, b2, vq', s1, s2, s3⟩ := view_of_valid (by simp) rfl hq
  obtain ⟨rfl, rfl, rfl⟩ := view_unique (by simp) hq.def_ hq.col vq' vq
  obtain ⟨p', ep, hp'⟩ := Distance.view_val (by simp) hp.def_ hp.col vp
  obtain ⟨q', eq, hq'⟩ := Distance.view_val (by simp) hq.def_ hq.col vq
  have ra : ∀ {x : ℝ}, (channelRange .lab 1).1 ≤ x ∧ x ≤ (channelRange .lab 1).2 → -128 ≤ x := fun h => by simpa [channelRange] using h.1
  have rb : ∀ {x : ℝ}, (channelRange .lab 2).1 ≤ x ∧ x ≤ (channelRange .lab 2).2 → |x| ≤ 128 := fun h => by rw [abs_le]; simpa [channelRange] using h
  obtain ⟨d, ed, d0⟩ := Cie00Near.cie00_number hp' hq' ea ea' hl hl' ⟨ra r2, a0⟩ (rb r3) ⟨ra s2, a0'⟩ (rb s3) hn hn' h0 h1 h2 h3 h4 rfl rfl hh
  exact ⟨d, (Distance.between_measures hp.def_ hq.def_ (by simp) hp.col hq.col ep eq ed).1, d0⟩

/-- C173 for colours from green to blue with the same components: in binary32 the CIEDE2000 difference is exactly zero. -/
theorem C173_zero (w : World) (p q : Color) (l a b kL k1 k2 kC kH : ℝ) (h0 : 1 ≤ kL ∧ kL ≤ 100) (h1 : 0 ≤ k1 ∧ k1 ≤ 1) (h2 : 0 ≤ k2 ∧ k2 ≤ 1) (h3 : 1 ≤ kC ∧ kC ≤ 100)
    (h4 : 1 ≤ kH ∧ kH ≤ 100) : letI := Binary32.binary32
    ∀ (_ : Valid w .lab p) (_ : Valid w .lab q) (_ : View w p .lab l a b) (_ : View w q .lab l a b) (_ : 0 ≤ l ∧ l ≤ 100) (_ : rnd a = fin a) (_ : a ≤ 0) (_ : a ≠ 0 ∨ b ≠ 0),
      Measures (Distance.cielab_delta_e_cie00 (fin kL) (fin k1) (fin k2) (fin kC) (fin kH)) w p q (fin 0) := by
  letI := Binary32.binary32
  intro hp hq vp vq hl ea a0 hn
  obtain ⟨l1, a1, b1, vp', r1, r2, r3⟩ := view_of_valid (by simp) rfl hp
  obtain ⟨rfl, rfl, rfl⟩ := view_unique (by simp) hp.def_ hp.col vp' vp
  have ra : -128 ≤ a1 := by simpa [channelRange] using r2.1
  have rb : |b1| ≤ 128 := by rw [abs_le]; simpa [channelRange] using r3
  exact measures_of (by simp) hp hq vp vq fun p q hp hq => Cie00Near.cie00_zero hp hq ea hl ⟨ra, a0⟩ rb hn h0 h1 h2 h3 h4

/-- A dark and a light green, and two objects that hold the same green. -/
example (w : World) : letI := Binary32.binary32
    ∃ p q : Color, Color.construct .lab [fin 20, fin (-30), fin 40] 1 none = ok p ∧ Color.construct .lab [fin 90, fin (-40), fin 30] 1 none = ok q ∧
      (∃ d : ℝ, Measures (Distance.cielab_delta_e_cie00 (fin 1) (fin (1 / 16)) (fin (1 / 64)) (fin 1) (fin 1)) w p q (fin d) ∧ 0 ≤ d) ∧
      Measures (Distance.cielab_delta_e_cie00 (fin 1) (fin (1 / 16)) (fin (1 / 64)) (fin 1) (fin 1)) w p p (fin 0) := by
  letI := Binary32.binary32
  obtain ⟨p, ep, -, hp, vp⟩ := exists_lab w 20 (-30) 40 (by norm_num) (by norm_num) (by norm_num)
  obtain ⟨q, eq, -, hq, vq⟩ := exists_lab w 90 (-40) 30 (by norm_num) (by norm_num) (by norm_num)
  have k1 : chromaOf (-30) 40 = 50 := by
    rw [chromaOf, show (-30 : ℝ) ^ 2 + 40 ^ 2 = 50 ^ 2 by norm_num]; exact Real.sqrt_sq (by norm_num)
  have k2 : chromaOf (-40) 30 = 50 := by
    rw [chromaOf, show (-40 : ℝ) ^ 2 + 30 ^ 2 = 50 ^ 2 by norm_num]; exact Real.sqrt_sq (by norm_num)
  have f1 : rnd (-30) = fin (-30) := by have := Cie00Near.round_nat (-30) (by norm_num); norm_num at this; exact this
  have f2 : rnd (-40) = fin (-40) := by have := Cie00Near.round_nat (-40) (by norm_num); norm_num at this; exact this
  exact ⟨p, q, ep, eq, C173_partial w p q _ _ _ _ _ _ 1 (1 / 16) (1 / 64) 1 1 (by norm_num) (by norm_num) (by norm_num) (by norm_num) (by norm_num) hp hq vp vq (by norm_num) (by norm_num) f1 f2 (by norm_num) (by norm_num)
      (by norm_num) (by norm_num) (by rw [k1, k2]; norm_num),
    C173_zero w p p _ _ _ 1 (1 / 16) (1 / 64) 1 1 (by norm_num) (by norm_num) (by norm_num) (by norm_num) (by norm_num) hp hp vp vp (by norm_num) f1 (by norm_num) (by norm_num)⟩

/-- Black and white, and white and a red of hue 45 degrees. -/
example (w : World) : letI := Binary32.binary32
    ∃ p q r : Color, Color.construct .lab [fin 0, fin 0, fin 0] 1 none = ok p ∧ Color.construct .lab [fin 100, fin 0, fin 0] 1 none = ok q ∧
      Color.construct .lab [fin 50, fin 60, fin 60] 1 none = ok r ∧
      Measures (Distance.cielab_delta_e_cie00 1 (lit 0.045) (lit 0.015) 1 1) w p q .nan ∧ Measures (Distance.cielab_delta_e_cie00 1 (lit 0.045) (lit 0.015) 1 1) w q r .nan := by
  letI := Binary32.binary32
  obtain ⟨p, ep, -, hp, vp⟩ := exists_lab w 0 0 0 (by norm_num) (by norm_num) (by norm_num)
  obtain ⟨q, eq, -, hq, vq⟩ := exists_lab w 100 0 0 (by norm_num) (by norm_num) (by norm_num)
  obtain ⟨r, er, -, hr, vr⟩ := exists_lab w 50 60 60 (by norm_num) (by norm_num) (by norm_num)
  have z : hueAngle 0 0 = 0 := by
    have : (⟨0, 0⟩ : ℂ) = 0 := rfl
    simp [hueAngle, this]
  have z' : hueAngle 60 60 = 45 := by
    have e : (⟨60, 60⟩ : ℂ) = ((60 * Real.sqrt 2 : ℝ) : ℂ) * (Real.cos (Real.pi / 4) + Real.sin (Real.pi / 4) * Complex.I) := by
      have h2 : Real.sqrt 2 * Real.sqrt 2 = 2 := Real.mul_self_sqrt (by norm_num)
      rw [Real.cos_pi_div_four, Real.sin_pi_div_four]
      apply Complex.ext
      · simp; linarith
      · simp; linarith
    have pi0 := Real.pi_pos
    have : Complex.arg ⟨60, 60⟩ = Real.pi / 4 := by
      rw [e, Complex.ofReal_cos, Complex.ofReal_sin]
      exact Complex.arg_mul_cos_add_sin_mul_I (by positivity) ⟨by linarith, by linarith⟩
    rw [hueAngle, this, if_pos (by positivity)]
    field_simp
    norm_num
  refine ⟨p, q, r, ep, eq, er, C173_grey_violated w p q 0 100 _ _ _ _ _ hp hq vp vq, C173_violated w q r 100 0 0 50 60 60 _ _ _ _ _ hq hr vq vr FloatModel.rnd_zero ?_ le_rfl le_rfl (by norm_num) (by norm_num)
    (by rw [z, z']; norm_num)⟩
  have := Cie00Near.round_nat 60 (by norm_num)
  norm_num at this
  exact this

end

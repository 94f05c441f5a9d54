import Verif.Props.Distances
import Verif.Props.Adjustments
import Verif.Props.Blends3
import Verif.Props.Formulas

/-!
# Properties C123 and C124: CIEDE2000 against the published formula, and the HSL adjustments; cases of C60 and C61 for colours of other types

The arithmetic is exact.
-/

open Outcome Fl Prog ObjectSpec ConvSpec BlendSpec DistSpec AdjustSpec CombineSpec

namespace DistSpec

/-- Sine of an angle in degrees. -/
noncomputable def sinDeg (x : ℝ) : ℝ := Real.sin (x / 180 * Real.pi)

/-- The weight 0.5 (1 - √(c⁷ / (c⁷ + 25⁷))) by which CIEDE2000 stretches the a axis. -/
noncomputable def stretch (c : ℝ) : ℝ := (1 - Real.sqrt (c ^ 7 / (c ^ 7 + 25 ^ 7))) / 2

/-- The difference of two hues, the short way round; 0 if one colour is grey. -/
noncomputable def hueStep (c c' h h' : ℝ) : ℝ :=
  if c * c' = 0 then 0 else if |h' - h| ≤ 180 then h' - h else if 180 < h' - h then h' - h - 360 else h' - h + 360

/-- The mean of two hues, the short way round; their sum if one colour is grey. -/
noncomputable def hueMean (c c' h h' : ℝ) : ℝ :=
  if c * c' = 0 then h + h' else if |h - h'| ≤ 180 then (h + h') / 2 else if h + h' < 360 then (h + h' + 360) / 2 else (h + h' - 360) / 2

/-- The published CIEDE2000 formula: G. Sharma, W. Wu, E. N. Dalal, "The CIEDE2000 color-difference formula", 2005, with the constants 0.045 and 0.015 as parameters `k1`, `k2`. -/
noncomputable def publishedCie00 (kL k1 k2 kC kH l a b l' a' b' : ℝ) : ℝ :=
  let g := stretch ((chromaOf a b + chromaOf a' b') / 2)
  let c := chromaOf ((1 + g) * a) b
  let c' := chromaOf ((1 + g) * a') b'
  let h := hueAngle ((1 + g) * a) b
  let h' := hueAngle ((1 + g) * a') b'
  let dH := 2 * Real.sqrt (c * c') * sinDeg (hueStep c c' h h' / 2)
  let m := (l + l') / 2
  let mC := (c + c') / 2
  let mH := hueMean c c' h h'
  let t := 1 - 0.17 * cosDeg (mH - 30) + 0.24 * cosDeg (2 * mH) + 0.32 * cosDeg (3 * mH + 6) - 0.2 * cosDeg (4 * mH - 63)
  let sL := 1 + k2 * (m - 50) ^ 2 / Real.sqrt (20 + (m - 50) ^ 2)
  let sC := 1 + k1 * mC
  let sH := 1 + k2 * mC * t
  let rT := -sinDeg (2 * (30 * Real.exp (-((mH - 275) / 25) ^ 2))) * (2 * Real.sqrt (mC ^ 7 / (mC ^ 7 + 25 ^ 7)))
  Real.sqrt (((l' - l) / (kL * sL)) ^ 2 + ((c' - c) / (kC * sC)) ^ 2 + (dH / (kH * sH)) ^ 2 + rT * ((c' - c) / (kC * sC)) * (dH / (kH * sH)))

/-- A hue in whole degrees, rounded towards the positive a axis. -/
noncomputable def wholeHue (a b : ℝ) : ℤ := if hueAngle a b ≤ 180 then ⌊hueAngle a b⌋ else ⌈hueAngle a b⌉ % 360

/-- What `cielab_delta_e_cie00` computes.  It differs from `publishedCie00` in these points: hues are whole numbers; chromas are those before the a axis is stretched; greys are not special;
the mean of two hues far apart is never reduced by 180; the exponent of the rotation term has the opposite sign. -/
noncomputable def codedCie00 (kL k1 k2 kC kH l a b l' a' b' : ℝ) : ℝ :=
  let c := chromaOf a b
  let c' := chromaOf a' b'
  let mC := (c + c') / 2
  let g := stretch mC
  let h : ℝ := wholeHue ((1 + g) * a) b
  let h' : ℝ := wholeHue ((1 + g) * a') b'
  let step := if |h' - h| ≤ 180 then h' - h else if h' ≤ h then h' - h + 360 else h' - h - 360
  let mH := if |h - h'| ≤ 180 then (h + h') / 2 else (h + h' + 360) / 2
  let dH := 2 * Real.sqrt (c * c') * sinDeg (step / 2)
  let m := (l + l') / 2
  let t := 1 - 0.17 * cosDeg (mH - 30) + 0.24 * cosDeg (2 * mH) + 0.32 * cosDeg (3 * mH + 6) - 0.2 * cosDeg (4 * mH - 63)
  let sL := 1 + k2 * (m - 50) ^ 2 / Real.sqrt (20 + (m - 50) ^ 2)
  let sC := 1 + k1 * mC
  let sH := 1 + k2 * mC * t
  let rT := -sinDeg (2 * (30 * Real.exp (((mH - 275) / 25) ^ 2))) * (2 * Real.sqrt (mC ^ 7 / (mC ^ 7 + 25 ^ 7)))
  Real.sqrt (((l' - l) / (kL * sL)) ^ 2 + ((c' - c) / (kC * sC)) ^ 2 + (dH / (kH * sH)) ^ 2 + rT * ((c' - c) / (kC * sC)) * (dH / (kH * sH)))

end DistSpec

section
variable [FloatModel] [ExactModel]

omit [FloatModel] [ExactModel] in
theorem Distance.de00_light (kL k1 k2 kC kH l l' a b : ℝ) :
    Distance.de00 kL k1 k2 kC kH l a b l' a b = ((l' - l) / (kL * Distance.sL00 k2 ((l + l') / 2))) ^ 2 := by
  simp [Distance.de00, Distance.deltaHue]

omit [FloatModel] [ExactModel] in
theorem DistSpec.published00_light (kL k1 k2 kC kH l l' a b : ℝ) :
    publishedCie00 kL k1 k2 kC kH l a b l' a b = Real.sqrt (((l' - l) / (kL * Distance.sL00 k2 ((l + l') / 2))) ^ 2) := by
  simp [publishedCie00, hueStep, sinDeg, Distance.sL00]

/-- **C123 (partial)** Two colours that differ in lightness only have the CIEDE2000 distance of the published formula.  Missing: colours of different chroma or hue, see
`C123_violated`. -/
theorem C123_lightness_partial (w : World) (p q : Color) (hp : Valid w .lab p) (hq : Valid w .lab q) (l l' a b kL k1 k2 kC kH : ℝ) (vp : View w p .lab l a b)
    (vq : View w q .lab l' a b) (h0 : 0 < kL) (h1 : 0 ≤ k1) (h2 : 0 ≤ k2) (h3 : 0 < kC) (h4 : 0 < kH) :
    Measures (Distance.cielab_delta_e_cie00 (fin kL) (fin k1) (fin k2) (fin kC) (fin kH)) w p q (fin (publishedCie00 kL k1 k2 kC kH l a b l' a b)) := by
  have := measures_of (f := Distance.cie00 (fin kL) (fin k1) (fin k2) (fin kC) (fin kH)) (by simp) hp hq vp vq fun p q ep eq => Distance.cie00_exact ep eq h0 h1 h2 h3 h4
  rwa [Distance.de00_light, ← published00_light kL k1 k2 kC kH] at this

/-- The hypotheses can be met, and the distance is as published: lightness 40 against 60. -/
example (w : World) : ∃ p q : Color, Color.construct .lab [fin 40, fin 10, fin 20] 1 none = ok p ∧ Color.construct .lab [fin 60, fin 10, fin 20] 1 none = ok q ∧
    Measures (Distance.cielab_delta_e_cie00 (fin 1) (fin 0.045) (fin 0.015) (fin 1) (fin 1)) w p q (fin 20) := by
  obtain ⟨p, ep, -, hp, vp⟩ := exists_lab w 40 10 20 (by norm_num) (by norm_num) (by norm_num)
  obtain ⟨q, eq, -, hq, vq⟩ := exists_lab w 60 10 20 (by norm_num) (by norm_num) (by norm_num)
  refine ⟨p, q, ep, eq, ?_⟩
  have := C123_lightness_partial w p q hp hq 40 60 10 20 1 0.045 0.015 1 1 vp vq (by norm_num) (by norm_num) (by norm_num) (by norm_num) (by norm_num)
  rw [published00_light] at this
  have e : Real.sqrt (((60 - 40 : ℝ) / (1 * Distance.sL00 0.015 ((40 + 60) / 2))) ^ 2) = 20 := by
    norm_num [Distance.sL00]
    rw [show (400 : ℝ) = 20 ^ 2 by norm_num, Real.sqrt_sq (by norm_num)]
  rwa [e] at this

omit [FloatModel] [ExactModel] in
/-- Two colours on the positive a axis as published. -/
theorem DistSpec.published00_axis {l a a' : ℝ} (ha : 0 < a) (ha' : a < a') :
    publishedCie00 1 0.045 0.015 1 1 l a 0 l a' 0 = (1 + stretch ((a + a') / 2)) * (a' - a) / (1 + 0.045 * ((1 + stretch ((a + a') / 2)) * ((a + a') / 2))) := by
  have hs : 0 ≤ stretch ((a + a') / 2) := by
    have := (Distance.gR_range (c := (a + a') / 2) (by linarith)).2
    unfold Distance.gR at this
    unfold stretch
    linarith
  have ch : ∀ x : ℝ, 0 ≤ x → chromaOf x 0 = x := fun x hx => by simp [chromaOf, Real.sqrt_sq hx]
  have ang : ∀ x : ℝ, 0 ≤ x → hueAngle x 0 = 0 := fun x hx => by
    have : Complex.arg ⟨x, 0⟩ = 0 := Complex.arg_ofReal_of_nonneg hx
    simp [hueAngle, this]
  have a0 : 0 < a' := ha.trans ha'
  unfold publishedCie00
  simp only [ch a ha.le, ch a' a0.le]
  set g := stretch ((a + a') / 2)
  have p1 : 0 ≤ (1 + g) * a := by positivity
  have p2 : 0 ≤ (1 + g) * a' := by positivity
  have hst : ∀ c c' : ℝ, hueStep c c' 0 0 = 0 := fun c c' => by simp [hueStep]
  have hsn : sinDeg (0 / 2) = 0 := by simp [sinDeg]
  rw [ch _ p1, ch _ p2, ang _ p1, ang _ p2, hst, hsn]
  simp only [mul_zero, zero_div, sub_self, ne_eq, OfNat.ofNat_ne_zero, not_false_eq_true, zero_pow, add_zero, zero_add, one_mul]
  rw [Real.sqrt_sq (div_nonneg (by nlinarith) (by positivity))]
  congr 1 <;> ring

omit [FloatModel] [ExactModel] in
/-- The same as coded. -/
theorem Distance.de00_axis {l a a' : ℝ} (ha : 0 < a) (ha' : a < a') : Real.sqrt (Distance.de00 1 0.045 0.015 1 1 l a 0 l a' 0) = (a' - a) / (1 + 0.045 * ((a + a') / 2)) := by
  have a0 : 0 < a' := ha.trans ha'
  have c1 : Real.sqrt (a ^ 2 + 0 ^ 2) = a := by simp [Real.sqrt_sq ha.le]
  have c2 : Real.sqrt (a' ^ 2 + 0 ^ 2) = a' := by simp [Real.sqrt_sq a0.le]
  unfold Distance.de00
  simp only [c1, c2]
  have hg := (Distance.gR_range (c := (a + a') / 2) (by linarith)).2
  have hz : ∀ x : ℝ, 0 < x → Distance.hueZ 0 (x + x / 2 * (1 - Distance.gR ((a + a') / 2))) = 0 := fun x hx => by
    have h0 : 0 ≤ x + x / 2 * (1 - Distance.gR ((a + a') / 2)) := by
      have : 0 ≤ x / 2 * (1 - Distance.gR ((a + a') / 2)) := mul_nonneg (by linarith) (by linarith)
      linarith
    have h1 : Complex.arg ⟨x + x / 2 * (1 - Distance.gR ((a + a') / 2)), 0⟩ = 0 := Complex.arg_ofReal_of_nonneg h0
    have ht : Fl.truncR 0 = 0 := by simp [Fl.truncR]
    simp [Distance.hueZ, h1, ht]
  rw [hz a ha, hz a' a0]
  simp only [Distance.deltaHue]
  simp
  rw [Real.sqrt_sq (div_nonneg (by linarith) (by positivity))]

omit [FloatModel] [ExactModel] in
/-- A larger chroma scale gives a larger distance. -/
theorem DistSpec.axis_lt {a a' : ℝ} (ha : 0 < a) (ha' : a < a') :
    (a' - a) / (1 + 0.045 * ((a + a') / 2)) < (1 + stretch ((a + a') / 2)) * (a' - a) / (1 + 0.045 * ((1 + stretch ((a + a') / 2)) * ((a + a') / 2))) := by
  have hs : 0 < stretch ((a + a') / 2) := by
    have := (Distance.gR_range (c := (a + a') / 2) (by linarith)).2
    unfold Distance.gR at this
    unfold stretch
    linarith
  set g := stretch ((a + a') / 2)
  have hm : 0 < (a + a') / 2 := by linarith
  rw [div_lt_div_iff₀ (by positivity) (by positivity)]
  have hd : 0 < a' - a := by linarith
  nlinarith [mul_pos hs hd]

/-- **C123 is violated** for any two reds of different chroma on the a axis: the chroma difference is taken before the a axis is stretched, so the distance is smaller than published. -/
theorem C123_violated (w : World) (l a a' : ℝ) (hl : 0 ≤ l ∧ l ≤ 100) (ha : 0 < a) (ha' : a < a') (hm : a' ≤ 128) : ∃ p q : Color, ∃ d : ℝ,
    Color.construct .lab [fin l, fin a, fin 0] 1 none = ok p ∧ Color.construct .lab [fin l, fin a', fin 0] 1 none = ok q ∧
    Measures (Distance.cielab_delta_e_cie00 (fin 1) (fin 0.045) (fin 0.015) (fin 1) (fin 1)) w p q (fin d) ∧ d < publishedCie00 1 0.045 0.015 1 1 l a 0 l a' 0 := by
  obtain ⟨p, ep, -, hp, vp⟩ := exists_lab w l a 0 hl ⟨by linarith, by linarith⟩ (by norm_num)
  obtain ⟨q, eq, -, hq, vq⟩ := exists_lab w l a' 0 hl ⟨by linarith, by linarith⟩ (by norm_num)
  refine ⟨p, q, (a' - a) / (1 + 0.045 * ((a + a') / 2)), ep, eq, ?_, ?_⟩
  · have := measures_of (f := Distance.cie00 (fin 1) (fin 0.045) (fin 0.015) (fin 1) (fin 1)) (by simp) hp hq vp vq fun p q ep eq =>
      Distance.cie00_exact ep eq (by norm_num) (by norm_num) (by norm_num) (by norm_num) (by norm_num)
    rwa [Distance.de00_axis ha ha'] at this
  · rw [published00_axis ha ha']
    exact axis_lt ha ha'

/-- The hypotheses can be met. -/
example (w : World) := C123_violated w 50 10 20 (by norm_num) (by norm_num) (by norm_num) (by norm_num)

omit [FloatModel] [ExactModel] in
theorem DistSpec.wholeHue_eq (a b : ℝ) : Distance.hueZ b a = wholeHue a b := by
  have hd := Distance.arg_deg ⟨a, b⟩
  have e : Complex.arg ⟨a, b⟩ / Real.pi * 180 = Complex.arg ⟨a, b⟩ * (180 / Real.pi) := by ring
  have pi0 := Real.pi_pos
  unfold Distance.hueZ wholeHue hueAngle
  simp only [e]
  by_cases h : 0 ≤ Complex.arg ⟨a, b⟩
  · have h0 : 0 ≤ Complex.arg ⟨a, b⟩ * (180 / Real.pi) := by positivity
    rw [if_pos h, if_pos hd.2, Fl.truncR, if_pos h0, if_neg (not_lt.mpr (Int.floor_nonneg.mpr h0))]
  · have h0 : Complex.arg ⟨a, b⟩ * (180 / Real.pi) < 0 := mul_neg_of_neg_of_pos (not_le.mp h) (by positivity)
    rw [if_neg h, Fl.truncR, if_neg (not_le.mpr h0)]
    generalize Complex.arg ⟨a, b⟩ * (180 / Real.pi) = d at *
    have ec : ⌈d + 360⌉ = ⌈d⌉ + 360 := by
      have := Int.ceil_add_natCast d 360
      push_cast at this
      exact this
    have c0 : ⌈d⌉ ≤ 0 := Int.ceil_le.mpr (by push_cast; exact h0.le)
    have c1 : -180 < ⌈d⌉ := Int.lt_ceil.mpr (by push_cast; exact hd.1)
    rw [if_neg (show ¬ d + 360 ≤ 180 by linarith [hd.1]), ec]
    split_ifs <;> omega

omit [FloatModel] [ExactModel] in
theorem DistSpec.coded_eq (kL k1 k2 kC kH l a b l' a' b' : ℝ) : Real.sqrt (Distance.de00 kL k1 k2 kC kH l a b l' a' b') = codedCie00 kL k1 k2 kC kH l a b l' a' b' := by
  have st : ∀ x m : ℝ, x + x / 2 * (1 - Distance.gR m) = (1 + stretch m) * x := fun x m => by simp only [Distance.gR, stretch]; ring
  have sn : ∀ x : ℝ, Real.sin (x * (Real.pi / 180)) = sinDeg x := fun x => by rw [sinDeg]; congr 1; ring
  have cs : ∀ x : ℝ, Real.cos (x * (Real.pi / 180)) = cosDeg x := fun x => by rw [cosDeg]; congr 1; ring
  have mean : ∀ n n' : ℤ, Distance.meanR n n' = if |(n : ℝ) - n'| ≤ 180 then ((n : ℝ) + n') / 2 else ((n : ℝ) + n' + 360) / 2 := fun n n' => by
    have : |(n : ℝ) - n'| ≤ 180 ↔ ¬ 180 < |n - n'| := by rw [not_lt]; norm_cast
    unfold Distance.meanR
    rw [if_congr this rfl rfl, ite_not]
    push_cast
    rfl
  have dlt : ∀ n n' : ℤ, ((Distance.deltaHue n n' : ℤ) : ℝ) = if |(n' : ℝ) - n| ≤ 180 then (n' : ℝ) - n else if (n' : ℝ) ≤ n then (n' : ℝ) - n + 360 else (n' : ℝ) - n - 360 := fun n n' => by
    have h1 : |(n' : ℝ) - n| ≤ 180 ↔ |n' - n| ≤ 180 := by norm_cast
    have h2 : (n' : ℝ) ≤ n ↔ n' ≤ n := by norm_cast
    unfold Distance.deltaHue
    rw [if_congr h1 rfl rfl, if_congr h2 rfl rfl]
    split_ifs with a1 a2 a3 a4
    · push_cast; rfl
    · push_cast; rfl
    · exact absurd a2.2 a3
    · exact absurd ⟨not_le.mp a1, a4⟩ a2
    · push_cast; rfl
  unfold Distance.de00 codedCie00
  simp only [st, DistSpec.wholeHue_eq, sn, Distance.tR00, cs, mean, dlt, Distance.sL00, Distance.rtR]
  have ch : ∀ x y : ℝ, Real.sqrt (x ^ 2 + y ^ 2) = chromaOf x y := fun _ _ => rfl
  simp only [ch]
  congr 2
  have r : ∀ m H : ℝ, -2 * Distance.gR m * sinDeg (60 * Real.exp ((-(H - 275) / 25) ^ 2)) = -sinDeg (2 * (30 * Real.exp (((H - 275) / 25) ^ 2))) * (2 * Real.sqrt (m ^ 7 / (m ^ 7 + 25 ^ 7))) := fun m H => by
    have e1 : (-(H - 275) / 25) ^ 2 = ((H - 275) / 25) ^ 2 := by ring
    rw [e1, show 60 * Real.exp (((H - 275) / 25) ^ 2) = 2 * (30 * Real.exp (((H - 275) / 25) ^ 2)) by ring, Distance.gR]
    ring
  rw [r]

/-- C123: what the function computes for all colours and positive factors.  The differences to the published formula are listed at `codedCie00`. -/
theorem C123_coded (w : World) (p q : Color) (hp : Valid w .lab p) (hq : Valid w .lab q) (l a b l' a' b' kL k1 k2 kC kH : ℝ) (vp : View w p .lab l a b)
    (vq : View w q .lab l' a' b') (h0 : 0 < kL) (h1 : 0 ≤ k1) (h2 : 0 ≤ k2) (h3 : 0 < kC) (h4 : 0 < kH) :
    Measures (Distance.cielab_delta_e_cie00 (fin kL) (fin k1) (fin k2) (fin kC) (fin kH)) w p q (fin (codedCie00 kL k1 k2 kC kH l a b l' a' b')) := by
  have := measures_of (f := Distance.cie00 (fin kL) (fin k1) (fin k2) (fin kC) (fin kH)) (by simp) hp hq vp vq fun p q ep eq => Distance.cie00_exact ep eq h0 h1 h2 h3 h4
  rwa [coded_eq] at this

/-- The hypotheses can be met by two colours of different hue on both sides of the a axis. -/
example (w : World) : ∃ p q : Color, Color.construct .lab [fin 40, fin 10, fin 20] 1 none = ok p ∧ Color.construct .lab [fin 60, fin 10, fin (-20)] 1 none = ok q ∧
    Measures (Distance.cielab_delta_e_cie00 (fin 1) (fin 0.045) (fin 0.015) (fin 1) (fin 1)) w p q (fin (codedCie00 1 0.045 0.015 1 1 40 10 20 60 10 (-20))) := by
  obtain ⟨p, ep, -, hp, vp⟩ := exists_lab w 40 10 20 (by norm_num) (by norm_num) (by norm_num)
  obtain ⟨q, eq, -, hq, vq⟩ := exists_lab w 60 10 (-20) (by norm_num) (by norm_num) (by norm_num)
  exact ⟨p, q, ep, eq, C123_coded w p q hp hq _ _ _ _ _ _ 1 0.045 0.015 1 1 vp vq (by norm_num) (by norm_num) (by norm_num) (by norm_num) (by norm_num)⟩

/-! ## C124: adjusting in HSL -/

/-- **C124** An HSL colour keeps its hue, and one of its saturation and lightness; the other is multiplied by 1 + p and limited to [0, 1].  Opacity and colour space stay. -/
theorem C124_hsl (w : World) (c : Color) (x y z p : ℝ) (h : IsHsl c x y z) :
    Replaces (fun k => Adjust.saturate_in_hsl_space k (fin p)) w c { c with comps := [fin x, fin (unit (y * (1 + p))), fin z] } ∧
    Replaces (fun k => Adjust.luminate_in_hsl_space k (fin p)) w c { c with comps := [fin x, fin y, fin (unit (z * (1 + p)))] } := by
  have e : ∀ v : ℝ, fmax (fmin (fin v * (1 + fin p)) 1) 0 = fin (unit (v * (1 + p))) := fun v => by
    rw [one_def, add_exact, mul_exact, ← one_def, limit_fin]
    rfl
  by_cases hp : p = 0
  · subst hp
    have hz : feq (fin 0) 0 := by simp
    have uy : unit (y * (1 + 0)) = y := by rw [add_zero, mul_one, unit_id h.y0 h.y1]
    have uz : unit (z * (1 + 0)) = z := by rw [add_zero, mul_one, unit_id h.z0 h.z1]
    rw [uy, uz, ← h.comps]
    exact ⟨replaces_self (hsl_zero (Or.inl rfl) hz), replaces_self (hsl_zero (Or.inr rfl) hz)⟩
  · have hp : ¬ feq (fin p) 0 := by simpa using hp
    have h1 := hsl_replaces (w := w) (f := Adjust.saturate_in_hsl_space) h.col hp h.comps (Or.inl ⟨rfl, rfl⟩)
    have h2 := hsl_replaces (w := w) (f := Adjust.luminate_in_hsl_space) h.col hp h.comps (Or.inr ⟨rfl, rfl⟩)
    rw [e] at h1 h2
    exact ⟨h1 , h2⟩

/-- **C124** A colour of any other class but LCH is converted to HSL, changed in the same way there, and converted back. -/
theorem C124_converted (w : World) (s : ColorType) (c d : Color) (hb : Base w s c) (hs : s ≠ .hsl) (x y z p : ℝ) (hp : p ≠ 0) (hd : Converts w c .hsl d)
    (hx : d.comps = [fin x, fin y, fin z]) :
    (∃ r, Makes (fun k => Adjust.saturate_in_hsl_space k (fin p)) w c r ∧ Converts w { d with comps := [fin x, fin (unit (y * (1 + p))), fin z] } s r) ∧
    ∃ r, Makes (fun k => Adjust.luminate_in_hsl_space k (fin p)) w c r ∧ Converts w { d with comps := [fin x, fin y, fin (unit (z * (1 + p)))] } s r := by
  have e : ∀ v : ℝ, fmax (fmin (fin v * (1 + fin p)) 1) 0 = fin (unit (v * (1 + p))) := fun v => by
    rw [one_def, add_exact, mul_exact, ← one_def, limit_fin]
    rfl
  have hp : ¬ feq (fin p) 0 := by simpa using hp
  have key : ∀ f, InHsl f → ∃ l r, Scaled f (fin p) (fin x) (fin y) (fin z) l ∧ Converts w { d with comps := l } s r ∧ Makes (fun q => f q (fin p)) w c r := by
    intro f hf
    obtain ⟨d', x', y', z', l, r, h1, h2, h3, h4, hm, -⟩ := hsl_makes hb hs hf hp
    have h1 := (converts_iff hb.defined (by simp) hb.col).mp h1
    rw [(converts_iff hb.defined (by simp) hb.col).mp hd, ok_inj] at h1
    subst h1
    rw [hx] at h2
    simp only [List.cons.injEq, and_true] at h2
    obtain ⟨rfl, rfl, rfl⟩ := h2
    exact ⟨l, r, h3, h4, hm⟩
  constructor
  · obtain ⟨l, r, hl, hc, hm⟩ := key _ (Or.inl rfl)
    rcases hl with ⟨-, rfl⟩ | ⟨hne, -⟩
    · exact ⟨r, hm, by rwa [e] at hc⟩
    · exact absurd hne (sat_ne_lum w)
  · obtain ⟨l, r, hl, hc, hm⟩ := key _ (Or.inr rfl)
    rcases hl with ⟨hne, -⟩ | ⟨-, rfl⟩
    · exact absurd hne.symm (sat_ne_lum w)
    · exact ⟨r, hm, by rwa [e] at hc⟩

/-- The hypotheses can be met: saturation 1/2 raised by 40 percent is 7/10, by 300 percent it is 1. -/
example (w : World) : ∃ c, IsHsl c 120 (1 / 2) (1 / 4) ∧ Replaces (fun k => Adjust.saturate_in_hsl_space k (fin 0.4)) w c { c with comps := [fin 120, fin 0.7, fin (1 / 4)] } ∧
    Replaces (fun k => Adjust.saturate_in_hsl_space k (fin 3)) w c { c with comps := [fin 120, fin 1, fin (1 / 4)] } := by
  obtain ⟨c, -, h, -, -⟩ := exists_hsl 120 (1 / 2) (1 / 4) 1 none (by norm_num)
  refine ⟨c, h, ?_, ?_⟩
  · have := (C124_hsl w c _ _ _ 0.4 h).1
    norm_num [unit] at this ⊢
    exact this
  · have := (C124_hsl w c _ _ _ 3 h).1
    norm_num [unit] at this ⊢
    exact this

/-! ## Cases of C60 and C61 -/

/-- A CMYK colour without black, its RGB colour and the way back. -/
theorem FormulaSpec.cmy_pixel (w : World) (x m y a : ℝ) (hx : 0 ≤ x ∧ x ≤ 1) (hm : 0 ≤ m ∧ m ≤ 1) (hy : 0 ≤ y ∧ y ≤ 1) (ha : 0 ≤ a ∧ a ≤ 1) (hz : FormulaSpec.top (1 - x) (1 - m) (1 - y) = 1) :
    ∃ c', Converts w ⟨.cmyk, .cmyk, [fin x, fin m, fin y, fin 0], fin a, 1, 0, none⟩ .rgbDeep c' ∧ IsPixel c' (1 - x) (1 - m) (1 - y) a ∧
      Converts w c' .cmyk ⟨.cmyk, .cmyk, [fin x, fin m, fin y, fin 0], fin a, 1, 0, none⟩ := by
  obtain ⟨c', h1, ⟨h2, h3⟩, h4, h5⟩ := C108_from_cmyk w ⟨.cmyk, .cmyk, [fin x, fin m, fin y, fin 0], fin a, 1, 0, none⟩ x m y 0 ⟨⟨rfl, rfl, rfl, rfl, rfl⟩, rfl⟩ hx hm hy (by norm_num)
  have hal : c'.alpha = c'.malpha := by simp [Color.alpha, h2.cls, Color.scalesAlpha]
  have hal2 : c'.malpha = fin a := by rw [← hal, h4]; rfl
  have hr : IsRgb c' (1 - x) (1 - m) (1 - y) :=
    ⟨h2, by simpa using h3, by linarith [hx.2], by linarith [hx.1], by linarith [hm.2], by linarith [hm.1], by linarith [hy.2], by linarith [hy.1]⟩
  refine ⟨c', h1, ⟨hr, hal2, ha.1, ha.2⟩, ?_⟩
  obtain ⟨e, g1, ⟨g2, g3⟩, g4, g5⟩ := C108_to_cmyk w c' _ _ _ hr (by rw [hz]; norm_num)
  have hae : e.alpha = e.malpha := by simp [Color.alpha, g2.cls, Color.scalesAlpha]
  have : e = ⟨.cmyk, .cmyk, [fin x, fin m, fin y, fin 0], fin a, 1, 0, none⟩ := by
    obtain ⟨cls, ct, comps, mal, mx, mn, sp⟩ := e
    obtain ⟨k1, k2, k3, k4, k5⟩ := g2
    simp only at k1 k2 k4 k5 g3 g4 g5 hae
    rw [hae, hal, hal2] at g4
    rw [h5] at g5
    subst k1 k2 k4 k5 g3 g4 g5
    simp [hz, Color.maxOf, Color.minOf]
  rwa [this] at g1

/-- Case of `C60_white_neutral_any`: half-transparent white ink multiplied with orange ink. -/
example (w : World) : Yields (ColorBlend.multiply true true) w ⟨.cmyk, .cmyk, [fin 0, fin 0, fin 0, fin 0], fin 0.5, 1, 0, none⟩
    ⟨.cmyk, .cmyk, [fin 0, fin 0.5, fin 1, fin 0], fin 1, 1, 0, none⟩ ⟨.cmyk, .cmyk, [fin 0, fin 0.5, fin 1, fin 0], fin 1, 1, 0, none⟩ := by
  obtain ⟨s', h1, h2, -⟩ := FormulaSpec.cmy_pixel w 0 0 0 0.5 (by norm_num) (by norm_num) (by norm_num) (by norm_num) (by norm_num [FormulaSpec.top])
  obtain ⟨d', g1, g2, g3⟩ := FormulaSpec.cmy_pixel w 0 0.5 1 1 (by norm_num) (by norm_num) (by norm_num) (by norm_num) (by norm_num [FormulaSpec.top])
  rw [sub_zero] at h2
  exact (C60_white_neutral_any .multiply .multiply w true .cmyk .cmyk (by simp) (by simp) _ _ s' d' ⟨rfl, rfl, rfl, rfl, rfl⟩ ⟨rfl, rfl, rfl, rfl, rfl⟩ (by rfl) h1 g1 _ _ _ _ h2 g2).1 _ g3

/-- Case of `C61_any_type`: yellow and cyan ink, red from the source and the rest from the destination, give the source's red and the destination's green and blue: white. -/
example [IntExact] (w : World) : Yields (ColorBlend.dissolve (fun i => if i = 0 then 101 else 50) true true) w ⟨.cmyk, .cmyk, [fin 0, fin 0, fin 1, fin 0], fin 1, 1, 0, none⟩
    ⟨.cmyk, .cmyk, [fin 1, fin 0, fin 0, fin 0], fin 1, 1, 0, none⟩ ⟨.cmyk, .cmyk, [fin 0, fin 0, fin 0, fin 0], fin 1, 1, 0, none⟩ := by
  obtain ⟨s', h1, h2, -⟩ := FormulaSpec.cmy_pixel w 0 0 1 1 (by norm_num) (by norm_num) (by norm_num) (by norm_num) (by norm_num [FormulaSpec.top])
  obtain ⟨d', g1, g2, -⟩ := FormulaSpec.cmy_pixel w 1 0 0 1 (by norm_num) (by norm_num) (by norm_num) (by norm_num) (by norm_num [FormulaSpec.top])
  obtain ⟨r', k1, k2, k3⟩ := FormulaSpec.cmy_pixel w 0 0 0 1 (by norm_num) (by norm_num) (by norm_num) (by norm_num) (by norm_num [FormulaSpec.top])
  refine C61_any_type _ w true true .cmyk .cmyk (by simp) (by simp) _ _ s' d' _ ⟨rfl, rfl, rfl, rfl, rfl⟩ ⟨rfl, rfl, rfl, rfl, rfl⟩ (by rfl) 1 rfl rfl h1 g1 _ _ _ _ _ _ h2 g2 ?_ ?_
  · intro x hx
    exact ExactModel.rnd_eq x
  · norm_num
    have hk : r' = Hue.obj .rgbDeep 1 1 1 (fin 1) none := by
      obtain ⟨q, h', -, e⟩ := call_to (h := ⟨w, [_]⟩) (i := 0) (s := .cmyk) (t := .rgbDeep) (by simp) (by simp) ⟨rfl, rfl, rfl, rfl, rfl⟩ rfl
        ((converts_iff (s := .cmyk) (by simp) (by simp) ⟨rfl, rfl, rfl, rfl, rfl⟩).mp k1)
      have := k2.eq
      rw [e.space] at this
      simpa using this
    rwa [hk] at k3

end

/-! ## C92 at 164 degrees -/

section
variable [FloatModel] [ExactModel]

omit [FloatModel] [ExactModel] in
/-- The two branches of `T` differ at 164 degrees: 2 cos 19° ≠ 1 + cos 28°. -/
theorem DistSpec.branches_differ : (0.56 : ℝ) + |0.2 * cosDeg (164 + 168)| < 0.36 + |0.4 * cosDeg (164 + 35)| := by
  have hp1 := Real.pi_gt_d2
  have hp2 := Real.pi_lt_d2
  have e1 : cosDeg (164 + 168) = Real.cos (28 / 180 * Real.pi) := by
    rw [cosDeg, ← Real.cos_neg, ← Real.cos_add_two_pi]; congr 1; ring
  have e2 : cosDeg (164 + 35) = - Real.cos (19 / 180 * Real.pi) := by
    rw [cosDeg, ← Real.cos_add_pi]; congr 1; ring
  have b1 := Real.cos_bound (x := 28 / 180 * Real.pi) (by rw [abs_of_nonneg (by positivity)]; linarith)
  have b2 := Real.one_sub_sq_div_two_le_cos (x := 19 / 180 * Real.pi)
  rw [abs_of_nonneg (a := 28 / 180 * Real.pi) (by positivity)] at b1
  have b3 := (abs_le.mp b1).2
  have x1 : (0.488 : ℝ) ≤ 28 / 180 * Real.pi := by linarith
  have x2 : 28 / 180 * Real.pi ≤ (0.49 : ℝ) := by linarith
  have y2 : 19 / 180 * Real.pi ≤ (0.3325 : ℝ) := by linarith
  have s1 : (0.488 : ℝ) ^ 2 ≤ (28 / 180 * Real.pi) ^ 2 := by gcongr
  have s2 : (28 / 180 * Real.pi) ^ 4 ≤ (0.49 : ℝ) ^ 4 := by gcongr
  have s3 : (19 / 180 * Real.pi) ^ 2 ≤ (0.3325 : ℝ) ^ 2 := by gcongr
  have c0 : 0 ≤ Real.cos (28 / 180 * Real.pi) := Real.cos_nonneg_of_mem_Icc ⟨by linarith, by linarith⟩
  have c1 : 0 ≤ Real.cos (19 / 180 * Real.pi) := Real.cos_nonneg_of_mem_Icc ⟨by linarith, by linarith⟩
  rw [e1, e2, abs_of_nonneg (by positivity), mul_neg, abs_neg, abs_of_nonneg (by positivity)]
  norm_num at s1 s2 s3
  linarith

/-- C92 is violated for CMC at a hue of exactly 164 degrees: the code takes the other branch of the published formula, and the value is another. -/
theorem C92_cmc_violated (w : World) : ∃ (p q : Color) (a b v : ℝ), Color.construct .lab [fin 50, fin a, fin b] 1 none = ok p ∧ Color.construct .lab [fin 50, fin 100, fin 0] 1 none = ok q ∧
    View w p .lab 50 a b ∧ View w q .lab 50 100 0 ∧ hueAngle a b = 164 ∧ Measures (Distance.cmc_delta_e_lc84 (fin 2) (fin 1)) w p q (fin v) ∧
    v < publishedCmc 2 1 50 a b 50 100 0 := by
  have hp1 := Real.pi_gt_d2
  have hp2 := Real.pi_lt_d2
  set θ : ℝ := 164 / 180 * Real.pi with hθ
  have hcos := Real.cos_sq_add_sin_sq θ
  have c1 := Real.neg_one_le_cos θ
  have c2 := Real.cos_le_one θ
  have s1 := Real.neg_one_le_sin θ
  have s2 := Real.sin_le_one θ
  obtain ⟨p, ep, -, vp, up⟩ := exists_lab w 50 (100 * Real.cos θ) (100 * Real.sin θ) (by norm_num) ⟨by linarith, by linarith⟩ ⟨by linarith, by linarith⟩
  obtain ⟨q, eq, -, vq, uq⟩ := exists_lab w 50 100 0 (by norm_num) (by norm_num) (by norm_num)
  have harg : Complex.arg ⟨100 * Real.cos θ, 100 * Real.sin θ⟩ = θ := by
    have : (⟨100 * Real.cos θ, 100 * Real.sin θ⟩ : ℂ) = ((100 : ℝ) : ℂ) * (Complex.cos θ + Complex.sin θ * Complex.I) := by
      apply Complex.ext <;> simp [Complex.cos_ofReal_re, Complex.sin_ofReal_re]
    rw [this]
    exact Complex.arg_mul_cos_add_sin_mul_I (by norm_num) ⟨by rw [hθ]; linarith, by rw [hθ]; linarith⟩
  have hH : hueAngle (100 * Real.cos θ) (100 * Real.sin θ) = 164 := by
    rw [hueAngle, harg, if_pos (by positivity), hθ]
    field_simp
  have hR : Distance.hueR (100 * Real.cos θ) (100 * Real.sin θ) = 164 := by
    have : θ * (180 / Real.pi) = 164 := by rw [hθ]; field_simp
    simp only [Distance.hueR, harg, this]
    norm_num
  have hC : Real.sqrt ((100 * Real.cos θ) ^ 2 + (100 * Real.sin θ) ^ 2) = 100 := by
    rw [show (100 * Real.cos θ) ^ 2 + (100 * Real.sin θ) ^ 2 = 100 ^ 2 * (Real.cos θ ^ 2 + Real.sin θ ^ 2) by ring, hcos, mul_one, Real.sqrt_sq (by norm_num)]
  have hC' : Real.sqrt ((100 : ℝ) ^ 2 + 0 ^ 2) = 100 := by
    rw [show (100 : ℝ) ^ 2 + 0 ^ 2 = 100 ^ 2 by ring, Real.sqrt_sq (by norm_num)]
  have hm := measures_of (f := Distance.cmc (fin 2) (fin 1)) (by simp) vp vq up uq fun p q ep eq => Distance.cmc_exact ep eq (by norm_num) (by norm_num)
  refine ⟨p, q, _, _, _, ep, eq, up, uq, hH, hm, ?_⟩
  simp only [publishedCmc, chromaOf, hueDiffSq, e76sq, hH, hR, hC, hC']
  rw [if_pos (show (164 : ℝ) ≤ 164 ∧ (164 : ℝ) ≤ 345 by norm_num)]
  have hd := DistSpec.branches_differ
  have ht : Distance.tR 164 = 0.36 + |0.4 * cosDeg (164 + 35)| := by
    rw [Distance.tR, if_neg (by norm_num), cosDeg]
    congr 4
    ring
  rw [ht]
  set T1 := 0.36 + |0.4 * cosDeg (164 + 35)|
  have t0 : 0 < 0.56 + |0.2 * cosDeg (164 + 168)| := by positivity
  set T2 := 0.56 + |0.2 * cosDeg (164 + 168)|
  have hF : Real.sqrt ((100 : ℝ) ^ 4 / (100 ^ 4 + 1900)) = Distance.fR 100 := rfl
  have hF0 : 0 < Distance.fR 100 := Real.sqrt_pos.mpr (by norm_num)
  have hF1 := (Distance.fR_range 100).2
  have hS : 0.0638 * (100 : ℝ) / (1 + 0.0131 * 100) + 0.638 = Distance.sCR 100 := rfl
  have hS0 : 0 < Distance.sCR 100 := Distance.sCR_pos (by norm_num)
  rw [hF, hS]
  generalize Distance.fR 100 = F at *
  generalize Distance.sCR 100 = S at *
  have hcθ : Real.cos θ < 0 := Real.cos_neg_of_pi_div_two_lt_of_lt (by rw [hθ]; linarith) (by rw [hθ]; linarith)
  have hD : 0 < (100 * Real.cos θ - 100) ^ 2 + (100 * Real.sin θ - 0) ^ 2 := by
    have : 100 * Real.cos θ - 100 ≠ 0 := by linarith
    positivity
  have e : (50 - 50 : ℝ) ^ 2 + (100 * Real.cos θ - 100) ^ 2 + (100 * Real.sin θ - 0) ^ 2 - (50 - 50) ^ 2 - (100 - 100) ^ 2 = (100 * Real.cos θ - 100) ^ 2 + (100 * Real.sin θ - 0) ^ 2 := by ring
  have e' : (100 * Real.cos θ - 100) ^ 2 + (100 * Real.sin θ - 0) ^ 2 - (100 - 100) ^ 2 = (100 * Real.cos θ - 100) ^ 2 + (100 * Real.sin θ - 0) ^ 2 := by ring
  rw [e, e']
  set D := (100 * Real.cos θ - 100) ^ 2 + (100 * Real.sin θ - 0) ^ 2
  have hT2 : 0 < F * T2 + 1 - F := by nlinarith
  have hT : F * T2 + 1 - F < F * T1 + 1 - F := by nlinarith
  apply Real.sqrt_lt_sqrt (by positivity)
  simp only [sub_self, zero_div, ne_eq, OfNat.ofNat_ne_zero, not_false_eq_true, zero_pow, zero_add]
  rw [div_pow, Real.sq_sqrt hD.le]
  apply div_lt_div_of_pos_left hD (by positivity)
  have : 0 < S * (F * T2 + 1 - F) := by positivity
  gcongr

end

/-! ## C105 at lightness 0 -/

section
variable [FloatModel] [ExactModel]

open FormulaSpec in
/-- C105: RGB of an HSL colour of lightness 0.  The channels are those of the formula; the opacity, unlike for all other colours, is lost. -/
theorem C105_from_black (w : World) (c : Color) (h s : ℝ) (hc : Is .hsl c [h, s, 0]) : ∃ d, Converts w c .rgbDeep d ∧
    Is .rgbDeep d [0 + s * (1 - |2 * 0 - 1|) * (hexRed h - 1 / 2), 0 + s * (1 - |2 * 0 - 1|) * (hexGreen h - 1 / 2), 0 + s * (1 - |2 * 0 - 1|) * (hexBlue h - 1 / 2)] ∧
    d.alpha = 0 ∧ d.space = c.space := by
  refine ⟨Color.mkRgbDeep 0 0 0 0 c.space, (converts_iff (by simp) (by simp) hc.col).mpr ?_, ⟨⟨rfl, rfl, rfl, rfl, rfl⟩, ?_⟩, rfl, rfl⟩
  · have hl : c.getComponent 0 = ok (fin h) ∧ c.getComponent 1 = ok (fin s) ∧ c.getComponent 2 = ok (fin 0) := Distance.get_comps (by rw [hc.comps]; rfl)
    rw [Val.to, if_neg (by simp)]
    change Leaf.hsl_to_rgb_deep c = _
    simp only [Leaf.hsl_to_rgb_deep, hl.1, hl.2.1, hl.2.2, ok_bind, zero_def, feq_fin, if_true, Color.constructGrey, Color.construct_rgbDeep]
  · have e : Color.clamp (0 : Fl) 1 0 = fin 0 := by simpa using Conv.clamp_unit (a := 0) (by norm_num) (by norm_num)
    show [Color.clamp 0 1 0, Color.clamp 0 1 0, Color.clamp 0 1 0] = _
    rw [e]
    norm_num

/-- A case: black in HSL with hue 120 and saturation 1, opaque. -/
example (w : World) : ∃ d, Converts w ⟨.hsl, .hsl, [fin 120, fin 1, fin 0], 1, 1, 0, none⟩ .rgbDeep d ∧ d.alpha = 0 := by
  obtain ⟨d, h1, -, h2, -⟩ := C105_from_black w ⟨.hsl, .hsl, [fin 120, fin 1, fin 0], 1, 1, 0, none⟩ 120 1 ⟨⟨rfl, rfl, rfl, rfl, rfl⟩, rfl⟩
  exact ⟨d, h1, h2⟩

end

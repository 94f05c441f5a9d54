import Verif.HueTurn
import Verif.Props.Formulas
import Verif.Props.Combinations3

/-!
# C152 and C153: the geometry of the hue circle

C152 relates the hue colour classes to what happens to the RGB channels: exchanging, inverting, dimming and fading them.  C153 gives the colour combinations of an RGB colour in closed
form.  Both in exact arithmetic.
-/

open Outcome Fl Prog ObjectSpec ConvSpec BlendSpec CombineSpec FormulaSpec Formula Hue

section
variable [FloatModel] [ExactModel]

/-! ## C152 -/

/-- **C152 (partial)** Handing every channel on to the next one turns the hue by 120 degrees and changes neither saturation, value, lightness, intensity nor chroma.  The stored hue
ends at 359: for hues in the last degree before 360 the stored hues differ by another angle (`C152_rotate_violated`). -/
theorem C152_rotate_partial (w : World) (c c' : Color) (r g b : ℝ) (h : IsRgb c r g b) (h' : IsRgb c' b r g) (hne : ¬ (r = g ∧ g = b)) : ∃ H, HueOf r g b H ∧
    (∃ s v, Gives w c .hsv [min H 359, s, v] ∧ Gives w c' .hsv [min (angle (H + 120)) 359, s, v]) ∧
    (∃ s l, Gives w c .hsl [min H 359, s, l] ∧ Gives w c' .hsl [min (angle (H + 120)) 359, s, l]) ∧
    (∃ s i, Gives w c .hsi [min H 359, s, i] ∧ Gives w c' .hsi [min (angle (H + 120)) 359, s, i]) ∧
    (∃ ch y y', Gives w c .hcy [min H 359, ch, y] ∧ Gives w c' .hcy [min (angle (H + 120)) 359, ch, y']) := by
  obtain ⟨H, hH, g1⟩ := C104_to_hsv w c r g b h
  have hR := hueOf_rotate hH hne
  have hi : intensity b r g = intensity r g b := by rw [intensity, intensity]; ring
  have hl : lightness b r g = lightness r g b := by rw [lightness, lightness, top_rotate, bot_rotate]
  refine ⟨H, hH, ⟨_, _, g1, ?_⟩, ?_, ?_, ?_⟩
  · obtain ⟨K, hK, g2⟩ := C104_to_hsv w c' b r g h'
    rwa [hueOf_unique hK hR, top_rotate, bot_rotate] at g2
  · obtain ⟨K, hK, g2⟩ := C105_to_hsl w c r g b h
    obtain ⟨K', hK', g3⟩ := C105_to_hsl w c' b r g h'
    rw [hueOf_unique hK hH] at g2
    rw [hueOf_unique hK' hR, top_rotate, bot_rotate, hl] at g3
    exact ⟨_, _, g2, g3⟩
  · obtain ⟨K, hK, g2⟩ := C107_to_hsi w c r g b h
    obtain ⟨K', hK', g3⟩ := C107_to_hsi w c' b r g h'
    rw [hueOf_unique hK hH] at g2
    rw [hueOf_unique hK' hR, bot_rotate, hi] at g3
    exact ⟨_, _, g2, g3⟩
  · obtain ⟨K, hK, g2⟩ := C106_to_hcy w c r g b h
    obtain ⟨K', hK', g3⟩ := C106_to_hcy w c' b r g h'
    rw [hueOf_unique hK hH] at g2
    rw [hueOf_unique hK' hR, top_rotate, bot_rotate] at g3
    exact ⟨_, _, _, g2, g3⟩

/-- **C152 (partial)** Exchanging green and blue mirrors the hue and keeps the other components. -/
theorem C152_mirror_partial (w : World) (c c' : Color) (r g b : ℝ) (h : IsRgb c r g b) (h' : IsRgb c' r b g) (hne : ¬ (r = g ∧ g = b)) : ∃ H, HueOf r g b H ∧
    (∃ s v, Gives w c .hsv [min H 359, s, v] ∧ Gives w c' .hsv [min (angle (-H)) 359, s, v]) ∧
    (∃ s l, Gives w c .hsl [min H 359, s, l] ∧ Gives w c' .hsl [min (angle (-H)) 359, s, l]) ∧
    (∃ s i, Gives w c .hsi [min H 359, s, i] ∧ Gives w c' .hsi [min (angle (-H)) 359, s, i]) ∧
    (∃ ch y y', Gives w c .hcy [min H 359, ch, y] ∧ Gives w c' .hcy [min (angle (-H)) 359, ch, y']) := by
  obtain ⟨H, hH, g1⟩ := C104_to_hsv w c r g b h
  have hR := hueOf_swap hH hne
  have hi : intensity r b g = intensity r g b := by rw [intensity, intensity]; ring
  have hl : lightness r b g = lightness r g b := by rw [lightness, lightness, top_swap, bot_swap]
  refine ⟨H, hH, ⟨_, _, g1, ?_⟩, ?_, ?_, ?_⟩
  · obtain ⟨K, hK, g2⟩ := C104_to_hsv w c' r b g h'
    rwa [hueOf_unique hK hR, top_swap, bot_swap] at g2
  · obtain ⟨K, hK, g2⟩ := C105_to_hsl w c r g b h
    obtain ⟨K', hK', g3⟩ := C105_to_hsl w c' r b g h'
    rw [hueOf_unique hK hH] at g2
    rw [hueOf_unique hK' hR, top_swap, bot_swap, hl] at g3
    exact ⟨_, _, g2, g3⟩
  · obtain ⟨K, hK, g2⟩ := C107_to_hsi w c r g b h
    obtain ⟨K', hK', g3⟩ := C107_to_hsi w c' r b g h'
    rw [hueOf_unique hK hH] at g2
    rw [hueOf_unique hK' hR, bot_swap, hi] at g3
    exact ⟨_, _, g2, g3⟩
  · obtain ⟨K, hK, g2⟩ := C106_to_hcy w c r g b h
    obtain ⟨K', hK', g3⟩ := C106_to_hcy w c' r b g h'
    rw [hueOf_unique hK hH] at g2
    rw [hueOf_unique hK' hR, top_swap, bot_swap] at g3
    exact ⟨_, _, _, g2, g3⟩

/-- **C152 (partial)** The photographic negative has the opposite hue, the same HSL saturation and HCY chroma, and the complementary lightness, intensity and luma.  Its HSV value is one
minus the smallest channel `v * (1 - s)`. -/
theorem C152_negative_partial (w : World) (c c' : Color) (r g b : ℝ) (h : IsRgb c r g b) (h' : IsRgb c' (1 - r) (1 - g) (1 - b)) (hne : ¬ (r = g ∧ g = b)) : ∃ H, HueOf r g b H ∧
    (∃ s v s', Gives w c .hsv [min H 359, s, v] ∧ Gives w c' .hsv [min (angle (H + 180)) 359, s', 1 - v * (1 - s)]) ∧
    (∃ s l, Gives w c .hsl [min H 359, s, l] ∧ Gives w c' .hsl [min (angle (H + 180)) 359, s, 1 - l]) ∧
    (∃ s i s', Gives w c .hsi [min H 359, s, i] ∧ Gives w c' .hsi [min (angle (H + 180)) 359, s', 1 - i]) ∧
    (∃ ch y, Gives w c .hcy [min H 359, ch, y] ∧ Gives w c' .hcy [min (angle (H + 180)) 359, ch, 1 - y]) := by
  obtain ⟨H, hH, g1⟩ := C104_to_hsv w c r g b h
  have hR := hueOf_negative hH hne
  have hi : intensity (1 - r) (1 - g) (1 - b) = 1 - intensity r g b := by rw [intensity, intensity]; ring
  have hl : lightness (1 - r) (1 - g) (1 - b) = 1 - lightness r g b := by rw [lightness, lightness, top_negative, bot_negative]; ring
  have hy : luma (1 - r) (1 - g) (1 - b) = 1 - luma r g b := by rw [luma, luma]; ring
  have hd : 1 - bot r g b - (1 - top r g b) = top r g b - bot r g b := by ring
  refine ⟨H, hH, ?_, ?_, ?_, ?_⟩
  · obtain ⟨K, hK, g2⟩ := C104_to_hsv w c' _ _ _ h'
    rw [hueOf_unique hK hR, top_negative, bot_negative] at g2
    have hv : top r g b * (1 - if top r g b = 0 then 0 else (top r g b - bot r g b) / top r g b) = bot r g b := by
      have ht : top r g b ≠ 0 := by
        intro e
        have := top_ne hne
        have h1 : bot r g b ≤ top r g b := (min_le_right _ _).trans (le_max_right _ _)
        have h2 : 0 ≤ bot r g b := le_min (le_min h.r0 h.g0) h.b0
        exact this (by linarith)
      rw [if_neg ht]
      field_simp
      ring
    rw [← hv] at g2
    exact ⟨_, _, _, g1, g2⟩
  · obtain ⟨K, hK, g2⟩ := C105_to_hsl w c r g b h
    obtain ⟨K', hK', g3⟩ := C105_to_hsl w c' _ _ _ h'
    rw [hueOf_unique hK hH, if_neg (top_ne hne)] at g2
    rw [hueOf_unique hK' hR, if_neg (by rw [top_negative, bot_negative]; intro e; exact top_ne hne (by linarith)), top_negative, bot_negative, hl, hd] at g3
    have ha : |2 * (1 - lightness r g b) - 1| = |2 * lightness r g b - 1| := by rw [← abs_neg]; congr 1; ring
    rw [ha] at g3
    exact ⟨_, _, g2, g3⟩
  · obtain ⟨K, hK, g2⟩ := C107_to_hsi w c r g b h
    obtain ⟨K', hK', g3⟩ := C107_to_hsi w c' _ _ _ h'
    rw [hueOf_unique hK hH] at g2
    rw [hueOf_unique hK' hR, hi] at g3
    exact ⟨_, _, _, g2, g3⟩
  · obtain ⟨K, hK, g2⟩ := C106_to_hcy w c r g b h
    obtain ⟨K', hK', g3⟩ := C106_to_hcy w c' _ _ _ h'
    rw [hueOf_unique hK hH] at g2
    rw [hueOf_unique hK' hR, top_negative, bot_negative, hd, hy] at g3
    exact ⟨_, _, g2, g3⟩

/-- C152: dimming, that is multiplying the channels by a positive factor, keeps the hue and the HSV and HSI saturation, and multiplies value, lightness, intensity, chroma and luma by the
factor.  This holds for greys and for every hue. -/
theorem C152_dim (w : World) (c c' : Color) (r g b k : ℝ) (hk : 0 < k) (h : IsRgb c r g b) (h' : IsRgb c' (k * r) (k * g) (k * b)) : ∃ H,
    (∃ s v, Gives w c .hsv [H, s, v] ∧ Gives w c' .hsv [H, s, k * v]) ∧
    (∃ s l s', Gives w c .hsl [H, s, l] ∧ Gives w c' .hsl [H, s', k * l]) ∧
    (∃ s i, Gives w c .hsi [H, s, i] ∧ Gives w c' .hsi [H, s, k * i]) ∧
    (∃ ch y, Gives w c .hcy [H, ch, y] ∧ Gives w c' .hcy [H, k * ch, k * y]) := by
  obtain ⟨H, hH, g1⟩ := C104_to_hsv w c r g b h
  have hR : HueOf (k * r) (k * g) (k * b) H := by simpa using hueOf_affine hk 0 hH
  have ht : top (k * r) (k * g) (k * b) = k * top r g b := by simpa using top_affine hk.le 0 r g b
  have hb : bot (k * r) (k * g) (k * b) = k * bot r g b := by simpa using bot_affine hk.le 0 r g b
  have hi : intensity (k * r) (k * g) (k * b) = k * intensity r g b := by rw [intensity, intensity]; ring
  have hl : lightness (k * r) (k * g) (k * b) = k * lightness r g b := by rw [lightness, lightness, ht, hb]; ring
  have hy : luma (k * r) (k * g) (k * b) = k * luma r g b := by rw [luma, luma]; ring
  refine ⟨min H 359, ⟨_, _, g1, ?_⟩, ?_, ?_, ?_⟩
  · obtain ⟨K, hK, g2⟩ := C104_to_hsv w c' _ _ _ h'
    rw [hueOf_unique hK hR, ht, hb, ← mul_sub, mul_div_mul_left _ _ hk.ne'] at g2
    simpa only [mul_eq_zero, hk.ne', false_or] using g2
  · obtain ⟨K, hK, g2⟩ := C105_to_hsl w c r g b h
    obtain ⟨K', hK', g3⟩ := C105_to_hsl w c' _ _ _ h'
    rw [hueOf_unique hK hH] at g2
    rw [hueOf_unique hK' hR, hl] at g3
    exact ⟨_, _, _, g2, g3⟩
  · obtain ⟨K, hK, g2⟩ := C107_to_hsi w c r g b h
    obtain ⟨K', hK', g3⟩ := C107_to_hsi w c' _ _ _ h'
    rw [hueOf_unique hK hH] at g2
    rw [hueOf_unique hK' hR, hb, hi, mul_div_mul_left _ _ hk.ne'] at g3
    refine ⟨_, _, g2, ?_⟩
    simpa only [mul_eq_zero, hk.ne', false_or] using g3
  · obtain ⟨K, hK, g2⟩ := C106_to_hcy w c r g b h
    obtain ⟨K', hK', g3⟩ := C106_to_hcy w c' _ _ _ h'
    rw [hueOf_unique hK hH] at g2
    rw [hueOf_unique hK' hR, ht, hb, ← mul_sub, hy] at g3
    exact ⟨_, _, g2, g3⟩

/-- C152: fading, that is mixing the channels with those of a grey `v`, keeps the hue; value, lightness, intensity and luma are mixed with `v` in the same ratio and the chroma shrinks by
it. -/
theorem C152_fade (w : World) (c c' : Color) (r g b t v : ℝ) (t1 : t < 1) (h : IsRgb c r g b)
    (h' : IsRgb c' ((1 - t) * r + t * v) ((1 - t) * g + t * v) ((1 - t) * b + t * v)) : ∃ H,
    (∃ s x s', Gives w c .hsv [H, s, x] ∧ Gives w c' .hsv [H, s', (1 - t) * x + t * v]) ∧
    (∃ s l s', Gives w c .hsl [H, s, l] ∧ Gives w c' .hsl [H, s', (1 - t) * l + t * v]) ∧
    (∃ s i s', Gives w c .hsi [H, s, i] ∧ Gives w c' .hsi [H, s', (1 - t) * i + t * v]) ∧
    (∃ ch y, Gives w c .hcy [H, ch, y] ∧ Gives w c' .hcy [H, (1 - t) * ch, (1 - t) * y + t * v]) := by
  have hk : 0 < 1 - t := by linarith
  obtain ⟨H, hH, g1⟩ := C104_to_hsv w c r g b h
  have hR := hueOf_affine hk (t * v) hH
  have ht := top_affine hk.le (t * v) r g b
  have hb := bot_affine hk.le (t * v) r g b
  have hi : intensity ((1 - t) * r + t * v) ((1 - t) * g + t * v) ((1 - t) * b + t * v) = (1 - t) * intensity r g b + t * v := by rw [intensity, intensity]; ring
  have hl : lightness ((1 - t) * r + t * v) ((1 - t) * g + t * v) ((1 - t) * b + t * v) = (1 - t) * lightness r g b + t * v := by rw [lightness, lightness, ht, hb]; ring
  have hy : luma ((1 - t) * r + t * v) ((1 - t) * g + t * v) ((1 - t) * b + t * v) = (1 - t) * luma r g b + t * v := by rw [luma, luma]; ring
  refine ⟨min H 359, ?_, ?_, ?_, ?_⟩
  · obtain ⟨K, hK, g2⟩ := C104_to_hsv w c' _ _ _ h'
    rw [hueOf_unique hK hR, ht] at g2
    exact ⟨_, _, _, g1, g2⟩
  · obtain ⟨K, hK, g2⟩ := C105_to_hsl w c r g b h
    obtain ⟨K', hK', g3⟩ := C105_to_hsl w c' _ _ _ h'
    rw [hueOf_unique hK hH] at g2
    rw [hueOf_unique hK' hR, hl] at g3
    exact ⟨_, _, _, g2, g3⟩
  · obtain ⟨K, hK, g2⟩ := C107_to_hsi w c r g b h
    obtain ⟨K', hK', g3⟩ := C107_to_hsi w c' _ _ _ h'
    rw [hueOf_unique hK hH] at g2
    rw [hueOf_unique hK' hR, hi] at g3
    exact ⟨_, _, _, g2, g3⟩
  · obtain ⟨K, hK, g2⟩ := C106_to_hcy w c r g b h
    obtain ⟨K', hK', g3⟩ := C106_to_hcy w c' _ _ _ h'
    rw [hueOf_unique hK hH] at g2
    rw [hueOf_unique hK' hR, ht, hb, hy] at g3
    have e : (1 - t) * top r g b + t * v - ((1 - t) * bot r g b + t * v) = (1 - t) * (top r g b - bot r g b) := by ring
    rw [e] at g3
    exact ⟨_, _, g2, g3⟩

omit [FloatModel] [ExactModel] in
theorem hueOf_359 : HueOf 1 0 (1 / 120) 359.5 := by
  have ht : top 1 0 (1 / 120) = 1 := by norm_num [top]
  have hb : bot 1 0 (1 / 120) = 0 := by norm_num [bot]
  refine ⟨by norm_num, by norm_num, ?_, ?_, ?_, by rw [ht, hb]; norm_num⟩ <;> rw [ht, hb] <;> norm_num [hexRed, hexGreen, hexBlue, clip, abs_of_pos, abs_of_neg]

/-- **C152 violated** The slightly bluish red (1, 0, 1/120) has the hue 359.5, stored as 359.  With the channels moved on the stored hue is 119.5, which is not 120 degrees further. -/
theorem C152_rotate_violated (w : World) (c c' : Color) (h : IsRgb c 1 0 (1 / 120)) (h' : IsRgb c' (1 / 120) 1 0) :
    (∃ s v, Gives w c .hsv [359, s, v]) ∧ (∃ s v, Gives w c' .hsv [119.5, s, v]) ∧ angle (359 + 120) = 119 := by
  obtain ⟨H, hH, ⟨s, v, g1, g2⟩, -⟩ := C152_rotate_partial w c c' 1 0 (1 / 120) h h' (by norm_num)
  rw [hueOf_unique hH hueOf_359] at g1 g2
  have e : angle (359.5 + 120) = 119.5 := angle_of 1 (by norm_num) (by norm_num) (by norm_num)
  rw [e] at g2
  rw [min_eq_right (by norm_num)] at g1
  rw [min_eq_left (by norm_num)] at g2
  exact ⟨⟨_, _, g1⟩, ⟨_, _, g2⟩, angle_of 1 (by norm_num) (by norm_num) (by norm_num)⟩

/-! ## C153 -/

/-- The channels of the colour with the same largest and smallest channel as `r`, `g`, `b` and the hue `K`. -/
noncomputable def CombineSpec.turned (r g b K : ℝ) : List Fl :=
  [fin (bot r g b + (top r g b - bot r g b) * hexRed K), fin (bot r g b + (top r g b - bot r g b) * hexGreen K), fin (bot r g b + (top r g b - bot r g b) * hexBlue K)]

theorem isHsl_mk {v s l : ℝ} (al : Fl) (sp : Option Nat) (s0 : 0 ≤ s) (s1 : s ≤ 1) (l0 : 0 ≤ l) (l1 : l ≤ 1) :
    Color.mkHue .hsl (fin v) (fin s) (fin l) al sp = obj .hsl (min (angle v) 359) s l al sp := by
  have ha : Color.hueReduce (fin v) = fin (angle v) := Color.hueReduce_fin _ (rnd_exact _)
  have hx : Color.clamp (fin (angle v)) 359 0 = fin (min (angle v) 359) := by
    simp only [lit_def, zero_def, Color.clamp_fin]
    rw [max_eq_left (le_min (angle_range v).1 (by norm_num))]
  simp only [Color.mkHue, ha, hx, clamp01 s0 s1, clamp01 l0 l1]
  rfl

/-- The RGB colour with a changed HSL hue. -/
theorem rehued_rgb {w : World} {c : Color} {r g b H : ℝ} (h : IsRgb c r g b) (hH : HueOf r g b H) (hb : ¬ (r = 0 ∧ g = 0 ∧ b = 0)) {f : Fl → Fl} {v : ℝ} (hf : f (fin (min H 359)) = fin v) :
    Rehued w .rgbDeep c f { c with comps := turned r g b (min (angle v) 359) } := by
  obtain ⟨K, hK, d, hd, hi, -, -⟩ := C105_to_hsl w c r g b h
  obtain rfl := hueOf_unique hK hH
  have hal : c.alpha = c.malpha := by rw [Color.alpha, h.col.cls]; rfl
  have b0 : 0 ≤ bot r g b := le_min (le_min h.r0 h.g0) h.b0
  have t1 : top r g b ≤ 1 := max_le (max_le h.r1 h.g1) h.b1
  have bt : bot r g b ≤ top r g b := (min_le_right _ _).trans (le_max_right _ _)
  have t0 : 0 < top r g b := by
    rcases (b0.trans bt).eq_or_lt with e | e
    · exfalso
      have h1 : r ≤ top r g b := (le_max_left _ _).trans (le_max_left _ _)
      have h2 : g ≤ top r g b := (le_max_right _ _).trans (le_max_left _ _)
      have h3 : b ≤ top r g b := le_max_right _ _
      exact hb ⟨by linarith [h.r0], by linarith [h.g0], by linarith [h.b0]⟩
    · exact e
  set S := if top r g b = bot r g b then 0 else (top r g b - bot r g b) / (1 - |2 * lightness r g b - 1|) with hS
  have hl : lightness r g b = (top r g b + bot r g b) / 2 := rfl
  have habs : top r g b - bot r g b ≤ 1 - |2 * lightness r g b - 1| := by
    rw [hl]; rcases abs_cases (2 * ((top r g b + bot r g b) / 2) - 1) with ⟨h, -⟩ | ⟨h, -⟩ <;> rw [h] <;> linarith
  have hSm : S * (1 - |2 * lightness r g b - 1|) = top r g b - bot r g b := by
    rw [hS]
    split_ifs with e
    · rw [e]; ring
    · have : top r g b - bot r g b ≠ 0 := sub_ne_zero.mpr e
      have : 0 < top r g b - bot r g b := lt_of_le_of_ne (by linarith) this.symm
      rw [div_mul_cancel₀ _ (by linarith)]
  have s0 : 0 ≤ S := by
    rw [hS]; split_ifs
    · exact le_rfl
    · exact div_nonneg (by linarith) (by linarith)
  have s1 : S ≤ 1 := by
    rw [hS]; split_ifs with e
    · exact zero_le_one
    · exact div_le_one_of_le₀ habs (by linarith)
  have l0 : 0 < lightness r g b := by rw [hl]; linarith
  have l1 : lightness r g b ≤ 1 := by rw [hl]; linarith
  have hm := isHsl_mk (v := v) c.malpha c.space s0 s1 l0.le l1
  have hI : Is .hsl (obj .hsl (min (angle v) 359) S (lightness r g b) c.malpha c.space) [min (angle v) 359, S, lightness r g b] := ⟨⟨rfl, rfl, rfl, rfl, rfl⟩, rfl⟩
  obtain ⟨e, he1, he2, he3, he4⟩ := C105_from_hsl w _ _ _ _ hI (le_min (angle_range v).1 (by norm_num)) ((min_le_right _ _).trans (by norm_num)) s0 s1 l0 l1
  refine ⟨d, _, _, _, obj .hsl (min (angle v) 359) S (lightness r g b) c.malpha c.space, hd, hi.comps, ?_, ?_⟩
  · rw [Color.construct_hsl, hf, hal, hm]
  · have ea : e.malpha = c.malpha := by
      have : e.alpha = e.malpha := by rw [Color.alpha, he2.col.cls]; rfl
      rw [← this, he3]; rfl
    have es : e.space = c.space := he4
    have key : ∀ x, lightness r g b + S * (1 - |2 * lightness r g b - 1|) * (x - 1 / 2) = bot r g b + (top r g b - bot r g b) * x := fun x => by
      rw [hSm, hl]; ring
    rw [key, key, key] at he2
    have := is_eq he2
    rw [ea, es, obj_rgb h] at this
    rw [this] at he1
    exact he1

/-- **C153 (partial)** The combinations of an RGB colour: the j-th member has the largest and the smallest channel of the given colour and the hue turned by `j * 360 / n` degrees; alpha and
colour space are kept.  Where the given or the resulting hue lies in the last degree before 360 the stored 359 degrees take its place.  Missing: black, which becomes transparent
(`C77_black_violated`, `C93_black_violated`). -/
theorem C153_combination_partial (c : Color) (r g b H : ℝ) (hc : IsRgb c r g b) (hH : HueOf r g b H) (hb : ¬ (r = 0 ∧ g = 0 ∧ b = 0)) (h : Heap) (i : Nat) (hi : h.colors[i]? = some c)
    (n : ℤ) (h2 : 2 ≤ n) (h360 : n ≤ 360) :
    ∃ ks h', Combine.create_combination (some i) n h = (ok ks, h') ∧ ∀ j : ℕ, 0 < j → (j : ℤ) < n → ∃ k, ks[j]? = some k ∧
      IsNew h h' k { c with comps := turned r g b (min (angle (min H 359 + j * (360 / n))) 359) } := by
  have hbase : Base h.world .rgbDeep c := ⟨by simp, by simp, hc.col, by simp [Cie]⟩
  obtain ⟨ks, h', e1, e2⟩ := C76_converted .rgbDeep c h i hi hbase n h2 h360
  refine ⟨ks, h', e1, fun j hj hjn => ?_⟩
  obtain ⟨k, q, a1, a2, a3⟩ := e2 j hj hjn
  refine ⟨k, a1, ?_⟩
  rw [hbase.rehued_unique a3 (rehued_rgb hc hH hb (v := min H 359 + j * (360 / n)) ?_)] at a2
  · exact a2
  · have hn : (n : ℝ) ≠ 0 := by
      have : n ≠ 0 := by omega
      exact_mod_cast this
    simp only [rnd_exact, lit_def]
    rw [div_exact _ _ hn]
    simp

/-- **C153 (partial)** The neighbours of an RGB colour on the hue circle. -/
theorem C153_analogous_partial (c : Color) (r g b H v : ℝ) (hc : IsRgb c r g b) (hH : HueOf r g b H) (hb : ¬ (r = 0 ∧ g = 0 ∧ b = 0)) (v0 : 0 < v) (v1 : v ≤ 120) (h : Heap) (i : Nat)
    (hi : h.colors[i]? = some c) :
    ∃ k1 k2 h', Combine.create_analogous (some i) (fin v) h = (ok [k1, some i, k2], h') ∧
      IsNew h h' k1 { c with comps := turned r g b (min (angle (min H 359 - v)) 359) } ∧
      IsNew h h' k2 { c with comps := turned r g b (min (angle (min H 359 + v)) 359) } ∧ Frame h h' := by
  have hbase : Base h.world .rgbDeep c := ⟨by simp, by simp, hc.col, by simp [Cie]⟩
  have e : (360 : Fl) / 3 = fin 120 := by
    simp only [lit_def]
    rw [div_exact _ _ (by norm_num)]
    norm_num
  obtain ⟨k1, k2, h', r1, r2, e1, n1, n2, f, q1, q2⟩ := C78_analogous_partial .rgbDeep c h i hi hbase (fin v) (by
    rw [e]
    simp only [zero_def, feq_fin, gt_iff_lt, fin_lt]
    rintro (hh | hh) <;> linarith)
  rw [hbase.rehued_unique q1 (rehued_rgb hc hH hb (f := fun x => x - fin v) (v := min H 359 - v) (by simp))] at n1
  rw [hbase.rehued_unique q2 (rehued_rgb hc hH hb (f := fun x => x + fin v) (v := min H 359 + v) (by simp))] at n2
  exact ⟨k1, k2, h', e1, n1, n2, f⟩

omit [FloatModel] [ExactModel] in
theorem turned_self {r g b H : ℝ} (h : HueOf r g b H) : turned r g b H = [fin r, fin g, fin b] := by
  rw [turned, ← h.red, ← h.green, ← h.blue]

omit [FloatModel] [ExactModel] in
theorem turned_rotate {r g b H : ℝ} (h : HueOf r g b H) : turned r g b (angle (H + 120)) = [fin b, fin r, fin g] := by
  obtain ⟨e1, e2, e3⟩ := hex_third h.lo h.hi
  rw [turned, e1, e2, e3, ← h.red, ← h.green, ← h.blue]

omit [FloatModel] [ExactModel] in
theorem turned_back {r g b H : ℝ} (h : HueOf r g b H) : turned r g b (angle (H + 240)) = [fin g, fin b, fin r] := by
  have ht := top_rotate r g b
  have hb := bot_rotate r g b
  obtain ⟨e1, e2, e3⟩ := hex_third h.lo h.hi
  obtain ⟨f1, f2, f3⟩ := hex_third (angle_range (H + 120)).1 (angle_range (H + 120)).2
  have ha : angle (angle (H + 120) + 120) = angle (H + 240) := by
    refine (angle_of (v := angle (angle (H + 120) + 120)) (⌊(H + 120) / 360⌋ + ⌊(angle (H + 120) + 120) / 360⌋) ?_ (angle_range _).1 (angle_range _).2).symm
    have x1 : ∀ x : ℝ, angle x = x - 360 * ⌊x / 360⌋ := fun x => by rw [angle, Int.fract]; ring
    rw [x1 (angle (H + 120) + 120)]
    rw [x1 (H + 120)]
    push_cast
    ring
  rw [ha] at f1 f2 f3
  rw [turned, f1, f2, f3, e1, e2, e3, ← h.red, ← h.green, ← h.blue]

/-- **C153 (partial)** The triplet of an RGB colour consists of the colour and the two colours with its channels handed on in a circle.  Missing: black, and colours one of whose three hues
lies in the last degree before 360. -/
theorem C153_triplet_partial (c : Color) (r g b H : ℝ) (hc : IsRgb c r g b) (hH : HueOf r g b H) (hb : ¬ (r = 0 ∧ g = 0 ∧ b = 0)) (hg : H ≤ 359)
    (hg1 : angle (H + 120) ≤ 359) (hg2 : angle (H + 240) ≤ 359) (h : Heap) (i : Nat) (hi : h.colors[i]? = some c) :
    ∃ k1 k2 h', Combine.create_triplet (some i) h = (ok [some i, k1, k2], h') ∧ IsNew h h' k1 { c with comps := [fin b, fin r, fin g] } ∧
      IsNew h h' k2 { c with comps := [fin g, fin b, fin r] } := by
  have hbase : Base h.world .rgbDeep c := ⟨by simp, by simp, hc.col, by simp [Cie]⟩
  obtain ⟨ks, h', e1, e2⟩ := C153_combination_partial c r g b H hc hH hb h i hi 3 (by norm_num) (by norm_num)
  obtain ⟨ks', h'', e1', l, k0, -⟩ := C75_size_partial .rgbDeep c h i hi hbase 3 (by norm_num) (by norm_num)
  rw [e1, Prod.mk.injEq, ok_inj] at e1'
  obtain ⟨rfl, rfl⟩ := e1'
  obtain ⟨k1, a1, b1⟩ := e2 1 (by norm_num) (by norm_num)
  obtain ⟨k2, a2, b2⟩ := e2 2 (by norm_num) (by norm_num)
  have x1 : min H 359 + ((1 : ℕ) : ℝ) * (360 / ((3 : ℤ) : ℝ)) = H + 120 := by rw [min_eq_left hg]; norm_num
  have x2 : min H 359 + ((2 : ℕ) : ℝ) * (360 / ((3 : ℤ) : ℝ)) = H + 240 := by rw [min_eq_left hg]; norm_num
  rw [x1, min_eq_left hg1, turned_rotate hH] at b1
  rw [x2, min_eq_left hg2, turned_back hH] at b2
  refine ⟨k1, k2, h', ?_, b1, b2⟩
  rw [Combine.create_triplet, e1]
  congr 2
  have l3 : ks.length = 3 := by exact_mod_cast l
  match ks, l3, k0, a1, a2 with
  | [x, y, z], _, k0, a1, a2 => simp at k0 a1 a2; rw [k0, a1, a2]

/-- Cases: the hue of orange; orange, its rotation, its negative, half as bright and half faded; the triplet of orange. -/
theorem hueOf_orange : HueOf 1 0.5 0 30 := by
  have ht : top 1 0.5 0 = 1 := by norm_num [top]
  have hb : bot 1 0.5 0 = 0 := by norm_num [bot]
  refine ⟨by norm_num, by norm_num, ?_, ?_, ?_, by rw [ht, hb]; norm_num⟩ <;> rw [ht, hb] <;> norm_num [hexRed, hexGreen, hexBlue, clip, abs_of_pos, abs_of_neg]

example (w : World) (al : Fl) : ∃ s v, Gives w (rgbOf 1 0.5 0 al none) .hsv [30, s, v] ∧ Gives w (rgbOf 0 1 0.5 al none) .hsv [150, s, v] := by
  obtain ⟨H, hH, hv, -⟩ := C152_rotate_partial w (rgbOf 1 0.5 0 al none) (rgbOf 0 1 0.5 al none) 1 0.5 0 (isRgb_rgbOf al none (by norm_num)) (isRgb_rgbOf al none (by norm_num)) (by norm_num)
  rw [hueOf_unique hH hueOf_orange, angle_of (v := 150) 0 (by norm_num) (by norm_num) (by norm_num), min_eq_left (by norm_num), min_eq_left (by norm_num)] at hv
  exact hv
example (w : World) (al : Fl) : ∃ s l, Gives w (rgbOf 1 0.5 0 al none) .hsl [30, s, l] ∧ Gives w (rgbOf (1 - 1) (1 - 0.5) (1 - 0) al none) .hsl [210, s, 1 - l] := by
  obtain ⟨H, hH, -, hv, -⟩ := C152_negative_partial w (rgbOf 1 0.5 0 al none) (rgbOf (1 - 1) (1 - 0.5) (1 - 0) al none) 1 0.5 0 (isRgb_rgbOf al none (by norm_num))
    (isRgb_rgbOf al none (by norm_num)) (by norm_num)
  rw [hueOf_unique hH hueOf_orange, angle_of (v := 210) 0 (by norm_num) (by norm_num) (by norm_num), min_eq_left (by norm_num), min_eq_left (by norm_num)] at hv
  exact hv
example (w : World) (al : Fl) : ∃ H, HueOf 1 0.5 0 H ∧ ∃ s l, Gives w (rgbOf 1 0.5 0 al none) .hsl [min H 359, s, l] ∧ Gives w (rgbOf 1 0 0.5 al none) .hsl [min (angle (-H)) 359, s, l] := by
  obtain ⟨H, hH, -, hv, -⟩ := C152_mirror_partial w (rgbOf 1 0.5 0 al none) (rgbOf 1 0 0.5 al none) 1 0.5 0 (isRgb_rgbOf al none (by norm_num)) (isRgb_rgbOf al none (by norm_num)) (by norm_num)
  exact ⟨H, hH, hv⟩
example (w : World) (al : Fl) : ∃ H s v, Gives w (rgbOf 1 0.5 0 al none) .hsv [H, s, v] ∧ Gives w (rgbOf (0.5 * 1) (0.5 * 0.5) (0.5 * 0) al none) .hsv [H, s, 0.5 * v] := by
  obtain ⟨H, hv, -⟩ := C152_dim w (rgbOf 1 0.5 0 al none) (rgbOf (0.5 * 1) (0.5 * 0.5) (0.5 * 0) al none) 1 0.5 0 0.5 (by norm_num) (isRgb_rgbOf al none (by norm_num))
    (isRgb_rgbOf al none (by norm_num))
  exact ⟨H, hv⟩
example (w : World) (c c' : Color) (h : IsRgb c 1 0.5 0) (h' : IsRgb c' ((1 - 0.5) * 1 + 0.5 * 0.5) ((1 - 0.5) * 0.5 + 0.5 * 0.5) ((1 - 0.5) * 0 + 0.5 * 0.5)) :
    ∃ H ch y, Gives w c .hcy [H, ch, y] ∧ Gives w c' .hcy [H, (1 - 0.5) * ch, (1 - 0.5) * y + 0.5 * 0.5] := by
  obtain ⟨H, -, -, -, hv⟩ := C152_fade w c c' 1 0.5 0 0.5 0.5 (by norm_num) h h'
  exact ⟨H, hv⟩
example (w : World) (al : Fl) : (∃ s v, Gives w (rgbOf 1 0 (1 / 120) al none) .hsv [359, s, v]) ∧ (∃ s v, Gives w (rgbOf (1 / 120) 1 0 al none) .hsv [119.5, s, v]) ∧ angle (359 + 120) = 119 :=
  C152_rotate_violated w _ _ (isRgb_rgbOf al none (by norm_num)) (isRgb_rgbOf al none (by norm_num))
example (w : World) (al : Fl) : ∃ k1 k2 h', Combine.create_triplet (some 0) ⟨w, [rgbOf 1 0.5 0 al none]⟩ = (ok [some 0, k1, k2], h') ∧
    IsNew ⟨w, [rgbOf 1 0.5 0 al none]⟩ h' k1 { rgbOf 1 0.5 0 al none with comps := [fin 0, fin 1, fin 0.5] } ∧
    IsNew ⟨w, [rgbOf 1 0.5 0 al none]⟩ h' k2 { rgbOf 1 0.5 0 al none with comps := [fin 0.5, fin 0, fin 1] } :=
  C153_triplet_partial _ 1 0.5 0 30 (isRgb_rgbOf al none (by norm_num)) hueOf_orange (by norm_num) (by norm_num)
    (by rw [angle_of (v := 150) 0 (by norm_num) (by norm_num) (by norm_num)]; norm_num) (by rw [angle_of (v := 270) 0 (by norm_num) (by norm_num) (by norm_num)]; norm_num) _ 0 rfl
example (w : World) (al : Fl) : ∃ k1 k2 h', Combine.create_analogous (some 0) (fin 30) ⟨w, [rgbOf 1 0.5 0 al none]⟩ = (ok [k1, some 0, k2], h') ∧
    IsNew ⟨w, [rgbOf 1 0.5 0 al none]⟩ h' k2 { rgbOf 1 0.5 0 al none with comps := turned 1 0.5 0 60 } := by
  obtain ⟨k1, k2, h', e, -, n, -⟩ := C153_analogous_partial _ 1 0.5 0 30 30 (isRgb_rgbOf al none (by norm_num)) hueOf_orange (by norm_num) (by norm_num) (by norm_num)
    ⟨w, [rgbOf 1 0.5 0 al none]⟩ 0 rfl
  have e60 : min (angle (min 30 359 + 30)) 359 = 60 := by
    rw [angle_of (v := 60) 0 (by norm_num) (by norm_num) (by norm_num)]; norm_num
  rw [e60] at n
  exact ⟨k1, k2, h', e, n⟩

end

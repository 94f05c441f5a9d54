import Verif.FormulaLemmas

/-!
# C104–C108: the conversions compute the published formulas

HSV, HSL, HSI, HCY and CMYK against RGB_DEEP, in exact arithmetic.  The hue is specified by `HueOf` without reference to the code's case distinction.
-/

open Outcome Fl Prog ObjectSpec ConvSpec BlendSpec FormulaSpec Formula Hue

section
variable [FloatModel] [ExactModel]

/-! ## C104 HSV -/

/-- C104: HSV of an RGB colour: the hue, the ratio of chroma to value, and the largest channel.  A hue above 359 degrees is stored as 359. -/
theorem C104_to_hsv (w : World) (c : Color) (r g b : ℝ) (h : IsRgb c r g b) : ∃ H, HueOf r g b H ∧
    Gives w c .hsv [min H 359, if top r g b = 0 then 0 else (top r g b - bot r g b) / top r g b, top r g b] := by
  obtain ⟨-, -, r0, r1, g0, g1, b0, b1⟩ := id h
  by_cases hne : max (max r g) b = min (min r g) b
  · obtain ⟨rfl, rfl⟩ := grey_of hne
    refine ⟨0, hueOf_grey b, gives_obj (s := .rgbDeep) (by simp) (by simp) (by simp) rfl rfl rfl h.col ?_⟩
    change Leaf.rgb_deep_to_hsv c = _
    conv_lhs => rw [rgb_eq h]
    simp only [Leaf.rgb_deep_to_hsv, obj_0, obj_1, obj_2, obj_space, obj_alpha _ _ _ _ _ _ (rfl : Color.scalesAlpha .rgbDeep = false), ok_bind, fmin_fin, fmax_fin, feq_fin,
      Color.construct_hsv, max_self, min_self, if_true, top, bot, sub_self, zero_div, ite_self]
    rw [min_eq_left (by norm_num)]
    exact congrArg ok (mkHue_grey .hsv _ _ ⟨rfl, rfl⟩ b0 b1)
  · obtain ⟨mn, δ, k, u, hp, hh⟩ := exists_pos hne
    have hδ := hp.δ0
    have hmn0 : 0 ≤ mn := by rw [← hp.minEq]; exact le_min (le_min r0 g0) b0
    have hmx1 : mn + δ ≤ 1 := by rw [← hp.maxEq]; exact max_le (max_le r1 g1) b1
    have hpos : 0 < mn + δ := by linarith
    refine ⟨_, hueOf_pos hp, gives_obj (s := .rgbDeep) (by simp) (by simp) (by simp) rfl rfl rfl h.col ?_⟩
    change Leaf.rgb_deep_to_hsv c = _
    conv_lhs => rw [rgb_eq h]
    simp only [Leaf.rgb_deep_to_hsv, obj_0, obj_1, obj_2, obj_space, obj_alpha _ _ _ _ _ _ (rfl : Color.scalesAlpha .rgbDeep = false), ok_bind, fmin_fin, fmax_fin, feq_fin,
      Color.construct_hsv]
    rw [if_neg hne, hp.maxEq, hp.minEq, sub_exact, div_exact _ _ hpos.ne', mkHue_obj _ _ _ ⟨rfl, rfl⟩ hp hh (by rw [add_sub_cancel_left]; positivity)
      (by rw [div_le_one hpos]; linarith) hpos.le hmx1, hue_lim hp, show top r g b = mn + δ from hp.maxEq, show bot r g b = mn from hp.minEq, if_neg hpos.ne']

/-- C104: RGB of an HSV colour: the fully saturated colour of the hue, faded towards white by the saturation and darkened by the value. -/
theorem C104_from_hsv (w : World) (c : Color) (h s v : ℝ) (hc : Is .hsv c [h, s, v]) (h0 : 0 ≤ h) (h1 : h ≤ 360) (s0 : 0 ≤ s) (s1 : s ≤ 1) (v0 : 0 ≤ v) (v1 : v ≤ 1) :
    Gives w c .rgbDeep [v * (1 - s * (1 - hexRed h)), v * (1 - s * (1 - hexGreen h)), v * (1 - s * (1 - hexBlue h))] := by
  obtain ⟨k, u, u0, u1, rfl, e1, e2, e3⟩ := sector_of h0 h1
  refine gives_obj (s := .hsv) (by simp) (by simp) (by simp) rfl rfl rfl hc.col ?_
  change Leaf.hsv_to_rgb_deep c = _
  conv_lhs => rw [is_eq hc]
  have hx := hex_range (k.hue u)
  have key : ∀ x, 0 ≤ x → x ≤ 1 → 0 ≤ v * (1 - s * (1 - x)) ∧ v * (1 - s * (1 - x)) ≤ 1 := by
    intro x x0 x1
    have a : 0 ≤ s * (1 - x) := mul_nonneg s0 (by linarith)
    have b : s * (1 - x) ≤ 1 := by nlinarith
    exact ⟨mul_nonneg v0 (by linarith), by nlinarith⟩
  have e : ∀ x, v - v * s * (1 - x) = v * (1 - s * (1 - x)) := fun x => by ring
  rw [from_hsv k u0 u1, e1, e2, e3, e, e, e, mkRgb_obj _ _ (key _ hx.1 hx.2.1).1 (key _ hx.1 hx.2.1).2 (key _ hx.2.2.1 hx.2.2.2.1).1 (key _ hx.2.2.1 hx.2.2.2.1).2
    (key _ hx.2.2.2.2.1 hx.2.2.2.2.2).1 (key _ hx.2.2.2.2.1 hx.2.2.2.2.2).2]

/-! ## C105 HSL -/

/-- Lightness: the mean of the largest and the smallest channel. -/
noncomputable def FormulaSpec.lightness (r g b : ℝ) : ℝ := (top r g b + bot r g b) / 2

/-- C105: HSL of an RGB colour.  The saturation is the chroma divided by the largest chroma a colour of this lightness can have. -/
theorem C105_to_hsl (w : World) (c : Color) (r g b : ℝ) (h : IsRgb c r g b) : ∃ H, HueOf r g b H ∧
    Gives w c .hsl [min H 359, if top r g b = bot r g b then 0 else (top r g b - bot r g b) / (1 - |2 * lightness r g b - 1|), lightness r g b] := by
  obtain ⟨-, -, r0, r1, g0, g1, b0, b1⟩ := id h
  by_cases hne : max (max r g) b = min (min r g) b
  · obtain ⟨rfl, rfl⟩ := grey_of hne
    refine ⟨0, hueOf_grey b, gives_obj (s := .rgbDeep) (by simp) (by simp) (by simp) rfl rfl rfl h.col ?_⟩
    change Leaf.rgb_deep_to_hsl c = _
    conv_lhs => rw [rgb_eq h]
    simp only [Leaf.rgb_deep_to_hsl, obj_0, obj_1, obj_2, obj_space, obj_alpha _ _ _ _ _ _ (rfl : Color.scalesAlpha .rgbDeep = false), ok_bind, fmin_fin, fmax_fin, feq_fin,
      Color.construct_hsl, max_self, min_self, if_true]
    rw [mkHue_grey .hsl _ _ ⟨rfl, rfl⟩ b0 b1]
    congr 2 <;> simp [lightness, top, bot]
  · obtain ⟨mn, δ, k, u, hp, hh⟩ := exists_pos hne
    have hδ := hp.δ0
    have hmn0 : 0 ≤ mn := by rw [← hp.minEq]; exact le_min (le_min r0 g0) b0
    have hmx1 : mn + δ ≤ 1 := by rw [← hp.maxEq]; exact max_le (max_le r1 g1) b1
    have ht : top r g b = mn + δ := hp.maxEq
    have hb : bot r g b = mn := hp.minEq
    refine ⟨_, hueOf_pos hp, gives_obj (s := .rgbDeep) (by simp) (by simp) (by simp) rfl rfl rfl h.col ?_⟩
    change Leaf.rgb_deep_to_hsl c = _
    conv_lhs => rw [rgb_eq h]
    simp only [Leaf.rgb_deep_to_hsl, obj_0, obj_1, obj_2, obj_space, obj_alpha _ _ _ _ _ _ (rfl : Color.scalesAlpha .rgbDeep = false), ok_bind, fmin_fin, fmax_fin, feq_fin,
      Color.construct_hsl]
    rw [if_neg hne, hp.maxEq, hp.minEq]
    simp only [sub_exact, add_exact, mul_exact, feq_fin, zero_def, one_def, lit_def, abs_fin]
    have hl : 0.5 * (mn + δ + mn) = lightness r g b := by rw [lightness, ht, hb]; ring
    have hl' : lightness r g b = mn + δ / 2 := by rw [← hl]; ring
    have hd : δ ≤ 1 - |2 * lightness r g b - 1| := by
      rw [hl']; rcases abs_cases (2 * (mn + δ / 2) - 1) with ⟨h, -⟩ | ⟨h, -⟩ <;> rw [h] <;> linarith
    rw [hl, if_neg (by rw [hl']; rintro (h | h) <;> linarith), div_exact _ _ (by linarith), mkHue_obj _ _ _ ⟨rfl, rfl⟩ hp hh
      (div_nonneg (by linarith) (by linarith)) (by rw [div_le_one (by linarith)]; linarith) (by rw [hl']; linarith) (by rw [hl']; linarith),
      hue_lim hp, ht, hb, if_neg (by linarith)]

/-- C105: RGB of an HSL colour that is not black. -/
theorem C105_from_hsl (w : World) (c : Color) (h s l : ℝ) (hc : Is .hsl c [h, s, l]) (h0 : 0 ≤ h) (h1 : h ≤ 360) (s0 : 0 ≤ s) (s1 : s ≤ 1) (l0 : 0 < l) (l1 : l ≤ 1) :
    Gives w c .rgbDeep [l + s * (1 - |2 * l - 1|) * (hexRed h - 1 / 2), l + s * (1 - |2 * l - 1|) * (hexGreen h - 1 / 2), l + s * (1 - |2 * l - 1|) * (hexBlue h - 1 / 2)] := by
  obtain ⟨k, u, u0, u1, rfl, e1, e2, e3⟩ := sector_of h0 h1
  refine gives_obj (s := .hsl) (by simp) (by simp) (by simp) rfl rfl rfl hc.col ?_
  change Leaf.hsl_to_rgb_deep c = _
  conv_lhs => rw [is_eq hc]
  have habs : 1 - |2 * l - 1| = 2 * min l (1 - l) := by
    rcases le_total l (1 / 2) with h | h
    · rw [abs_of_nonpos (by linarith), min_eq_left (by linarith)]; ring
    · rw [abs_of_nonneg (by linarith), min_eq_right (by linarith)]; ring
  have hm0 : 0 ≤ min l (1 - l) := le_min l0.le (by linarith)
  have hx := hex_range (k.hue u)
  have key : ∀ x, 0 ≤ x → x ≤ 1 → 0 ≤ l + s * (1 - |2 * l - 1|) * (x - 1 / 2) ∧ l + s * (1 - |2 * l - 1|) * (x - 1 / 2) ≤ 1 := by
    intro x x0 x1
    rw [habs]
    have a : 0 ≤ s * min l (1 - l) := mul_nonneg s0 hm0
    have b : s * min l (1 - l) ≤ min l (1 - l) := by nlinarith
    have := min_le_left l (1 - l); have := min_le_right l (1 - l)
    constructor <;> nlinarith
  have e : ∀ x, l - s * min l (1 - l) * (1 - 2 * x) = l + s * (1 - |2 * l - 1|) * (x - 1 / 2) := fun x => by rw [habs]; ring
  rw [from_hsl k u0 u1 _ _ l0.ne', e1, e2, e3, e, e, e, mkRgb_obj _ _ (key _ hx.1 hx.2.1).1 (key _ hx.1 hx.2.1).2 (key _ hx.2.2.1 hx.2.2.2.1).1 (key _ hx.2.2.1 hx.2.2.2.1).2
    (key _ hx.2.2.2.2.1 hx.2.2.2.2.2).1 (key _ hx.2.2.2.2.1 hx.2.2.2.2.2).2]

/-! ## C106 HCY -/

/-- C106: HCY of an RGB colour: hue, chroma and luma. -/
theorem C106_to_hcy (w : World) (c : Color) (r g b : ℝ) (h : IsRgb c r g b) : ∃ H, HueOf r g b H ∧
    Gives w c .hcy [min H 359, top r g b - bot r g b, luma r g b] := by
  obtain ⟨-, -, r0, r1, g0, g1, b0, b1⟩ := id h
  by_cases hne : max (max r g) b = min (min r g) b
  · obtain ⟨rfl, rfl⟩ := grey_of hne
    refine ⟨0, hueOf_grey b, gives_obj (s := .rgbDeep) (by simp) (by simp) (by simp) rfl rfl rfl h.col ?_⟩
    change Leaf.rgb_deep_to_hcy c = _
    conv_lhs => rw [rgb_eq h]
    simp only [Leaf.rgb_deep_to_hcy, obj_0, obj_1, obj_2, obj_space, obj_alpha _ _ _ _ _ _ (rfl : Color.scalesAlpha .rgbDeep = false), ok_bind, fmin_fin, fmax_fin, feq_fin,
      Color.construct_hcy, max_self, min_self, if_true]
    rw [mkHue_grey .hcy _ _ ⟨rfl, rfl⟩ b0 b1]
    congr 2 <;> (try simp [top, bot, luma]) <;> ring
  · obtain ⟨mn, δ, k, u, hp, hh⟩ := exists_pos hne
    have hδ := hp.δ0
    have hmn0 : 0 ≤ mn := by rw [← hp.minEq]; exact le_min (le_min r0 g0) b0
    have hmx1 : mn + δ ≤ 1 := by rw [← hp.maxEq]; exact max_le (max_le r1 g1) b1
    have ht : top r g b = mn + δ := hp.maxEq
    have hb : bot r g b = mn := hp.minEq
    refine ⟨_, hueOf_pos hp, gives_obj (s := .rgbDeep) (by simp) (by simp) (by simp) rfl rfl rfl h.col ?_⟩
    change Leaf.rgb_deep_to_hcy c = _
    conv_lhs => rw [rgb_eq h]
    simp only [Leaf.rgb_deep_to_hcy, obj_0, obj_1, obj_2, obj_space, obj_alpha _ _ _ _ _ _ (rfl : Color.scalesAlpha .rgbDeep = false), ok_bind, fmin_fin, fmax_fin, feq_fin,
      Color.construct_hcy]
    rw [if_neg hne, hp.maxEq, hp.minEq]
    simp only [sub_exact, add_exact, mul_exact, lit_exact]
    rw [mkHue_obj _ _ _ ⟨rfl, rfl⟩ hp hh (by linarith) (by linarith) (by linarith) (by linarith), hue_lim hp, ht, hb, luma]

/-- C106: RGB of an HCY colour: the fully saturated colour of the hue, scaled by the chroma and shifted to the luma, limited to 0 … 1. -/
theorem C106_from_hcy (w : World) (c : Color) (h ch y : ℝ) (hc : Is .hcy c [h, ch, y]) (h0 : 0 ≤ h) (h1 : h ≤ 360) :
    Gives w c .rgbDeep [clip (y + ch * (hexRed h - luma (hexRed h) (hexGreen h) (hexBlue h))), clip (y + ch * (hexGreen h - luma (hexRed h) (hexGreen h) (hexBlue h))),
      clip (y + ch * (hexBlue h - luma (hexRed h) (hexGreen h) (hexBlue h)))] := by
  obtain ⟨k, u, u0, u1, rfl, e1, e2, e3⟩ := sector_of h0 h1
  refine gives_obj (s := .hcy) (by simp) (by simp) (by simp) rfl rfl rfl hc.col ?_
  change Leaf.hcy_to_rgb_deep c = _
  conv_lhs => rw [is_eq hc]
  rw [from_hcy k u0 u1, e1, e2, e3, mkRgb_clip]
  have e : ∀ x, (x - (hexRed (k.hue u) * 0.2126 + hexGreen (k.hue u) * 0.7152 + hexBlue (k.hue u) * 0.0722)) * ch + y =
      y + ch * (x - luma (hexRed (k.hue u)) (hexGreen (k.hue u)) (hexBlue (k.hue u))) := fun x => by rw [luma]; ring
  rw [e, e, e]

/-! ## C107 HSI -/

/-- Intensity: the mean of the channels. -/
noncomputable def FormulaSpec.intensity (r g b : ℝ) : ℝ := (r + g + b) / 3

/-- C107: HSI of an RGB colour: hue, saturation and mean of the channels. -/
theorem C107_to_hsi (w : World) (c : Color) (r g b : ℝ) (h : IsRgb c r g b) : ∃ H, HueOf r g b H ∧
    Gives w c .hsi [min H 359, if intensity r g b = 0 then 0 else 1 - bot r g b / intensity r g b, intensity r g b] := by
  obtain ⟨-, -, r0, r1, g0, g1, b0, b1⟩ := id h
  by_cases hne : max (max r g) b = min (min r g) b
  · obtain ⟨rfl, rfl⟩ := grey_of hne
    refine ⟨0, hueOf_grey b, gives_obj (s := .rgbDeep) (by simp) (by simp) (by simp) rfl rfl rfl h.col ?_⟩
    have hi : intensity b b b = b := by rw [intensity]; ring
    have hbt : bot b b b = b := by simp [bot]
    have hs : (if intensity b b b = 0 then (0 : ℝ) else 1 - bot b b b / intensity b b b) = 0 := by
      rw [hi, hbt]; split
      · rfl
      · rw [div_self (by assumption), sub_self]
    rw [hs, hi]
    change Leaf.rgb_deep_to_hsi c = _
    conv_lhs => rw [rgb_eq h]
    simp only [Leaf.rgb_deep_to_hsi, obj_0, obj_1, obj_2, obj_space, obj_alpha _ _ _ _ _ _ (rfl : Color.scalesAlpha .rgbDeep = false), ok_bind, fmin_fin, fmax_fin, feq_fin,
      Color.construct_hsi, max_self, min_self, if_true]
    rw [mkHue_grey .hsi _ _ ⟨rfl, rfl⟩ b0 b1]
    congr 2 <;> simp
  · obtain ⟨mn, δ, k, u, hp, hh⟩ := exists_pos hne
    have hδ := hp.δ0
    have hmn0 : 0 ≤ mn := by rw [← hp.minEq]; exact le_min (le_min r0 g0) b0
    have hmx1 : mn + δ ≤ 1 := by rw [← hp.maxEq]; exact max_le (max_le r1 g1) b1
    have ht : top r g b = mn + δ := hp.maxEq
    have hb : bot r g b = mn := hp.minEq
    refine ⟨_, hueOf_pos hp, gives_obj (s := .rgbDeep) (by simp) (by simp) (by simp) rfl rfl rfl h.col ?_⟩
    change Leaf.rgb_deep_to_hsi c = _
    conv_lhs => rw [rgb_eq h]
    simp only [Leaf.rgb_deep_to_hsi, obj_0, obj_1, obj_2, obj_space, obj_alpha _ _ _ _ _ _ (rfl : Color.scalesAlpha .rgbDeep = false), ok_bind, fmin_fin, fmax_fin, feq_fin,
      Color.construct_hsi]
    rw [if_neg hne, hp.maxEq, hp.minEq]
    have hr1 : mn ≤ r := by rw [← hp.minEq]; exact (min_le_left _ _).trans (min_le_left _ _)
    have hg1 : mn ≤ g := by rw [← hp.minEq]; exact (min_le_left _ _).trans (min_le_right _ _)
    have hb1 : mn ≤ b := by rw [← hp.minEq]; exact min_le_right _ _
    have hi0 : 0 < intensity r g b := by
      have : mn + δ ≤ r + g + b := by rw [← hp.maxEq]; exact max_le (max_le (by linarith) (by linarith)) (by linarith)
      rw [intensity]; linarith
    have hi1 : intensity r g b ≤ 1 := by rw [intensity]; linarith
    have hmi : mn ≤ intensity r g b := by rw [intensity]; linarith
    simp only [sub_exact, add_exact, lit_def, one_def, div_exact _ _ (show (3 : ℝ) ≠ 0 by norm_num)]
    rw [show (r + g + b) / 3 = intensity r g b from rfl, div_exact _ _ hi0.ne', sub_exact]
    rw [mkHue_obj _ _ _ ⟨rfl, rfl⟩ hp hh (by rw [sub_nonneg, div_le_one hi0]; exact hmi) (by rw [sub_le_self_iff]; positivity) hi0.le hi1, hue_lim hp, hb, if_neg hi0.ne']

/-- The published RGB value of an HSI colour, for one channel `x` of the fully saturated colour of its hue. -/
noncomputable def FormulaSpec.hsiChannel (h s i x : ℝ) : ℝ := i * (1 - s) + 3 * i * s / (hexRed h + hexGreen h + hexBlue h) * x

theorem hex_sum {h : ℝ} (h0 : 0 ≤ h) (h1 : h ≤ 360) : 1 ≤ hexRed h + hexGreen h + hexBlue h := by
  obtain ⟨k, u, u0, u1, rfl, e1, e2, e3⟩ := sector_of h0 h1
  rw [← e1, ← e2, ← e3]
  cases k <;> simp only [Sector.red, Sector.green, Sector.blue] <;> linarith

/-- What the code computes for an HSI colour with some saturation: the published value without the share `i * (1 - s)` of the smallest channel. -/
theorem C107_from_hsi (w : World) (c : Color) (h s i : ℝ) (hc : Is .hsi c [h, s, i]) (h0 : 0 ≤ h) (h1 : h ≤ 360) (hs : s ≠ 0) :
    Gives w c .rgbDeep [clip (hsiChannel h s i (hexRed h) - i * (1 - s)), clip (hsiChannel h s i (hexGreen h) - i * (1 - s)), clip (hsiChannel h s i (hexBlue h) - i * (1 - s))] := by
  obtain ⟨k, u, u0, u1, rfl, e1, e2, e3⟩ := sector_of h0 h1
  refine gives_obj (s := .hsi) (by simp) (by simp) (by simp) rfl rfl rfl hc.col ?_
  change Leaf.hsi_to_rgb_deep c = _
  conv_lhs => rw [is_eq hc]
  have hsum : hexRed (k.hue u) + hexGreen (k.hue u) + hexBlue (k.hue u) = 1 + u := by
    rw [← e1, ← e2, ← e3]; cases k <;> simp only [Sector.red, Sector.green, Sector.blue] <;> ring
  rw [from_hsi k u0 u1 _ _ hs, e1, e2, e3, mkRgb_clip]
  have e : ∀ x, 3 * i * s / (1 + u) * x = hsiChannel (k.hue u) s i x - i * (1 - s) := fun x => by rw [hsiChannel, hsum]; ring
  rw [e, e, e]

/-- C107 (partial): for fully saturated colours the result is the published one.  Missing: colours with a saturation strictly between 0 and 1, for which the statement is false
(`C107_from_hsi_violated`). -/
theorem C107_from_hsi_partial (w : World) (c : Color) (h i : ℝ) (hc : Is .hsi c [h, 1, i]) (h0 : 0 ≤ h) (h1 : h ≤ 360) :
    Gives w c .rgbDeep [clip (hsiChannel h 1 i (hexRed h)), clip (hsiChannel h 1 i (hexGreen h)), clip (hsiChannel h 1 i (hexBlue h))] := by
  have := C107_from_hsi w c h 1 i hc h0 h1 one_ne_zero
  simpa using this

/-- C107: colours without saturation become grey. -/
theorem C107_grey (w : World) (c : Color) (h i : ℝ) (hc : Is .hsi c [h, 0, i]) (i0 : 0 ≤ i) (i1 : i ≤ 1) : Gives w c .rgbDeep [i, i, i] := by
  refine gives_obj (s := .hsi) (by simp) (by simp) (by simp) rfl rfl rfl hc.col ?_
  change Leaf.hsi_to_rgb_deep c = _
  conv_lhs => rw [is_eq hc]
  simp only [Leaf.hsi_to_rgb_deep, obj_0, obj_1, obj_2, obj_space, obj_alpha _ _ _ _ _ _ (rfl : Color.scalesAlpha .hsi = false), ok_bind,
    zero_def, feq_fin, if_true, Color.constructGrey, Color.construct_rgbDeep, mkRgb_obj _ _ i0 i1 i0 i1 i0 i1]

/-- C107 (violated): with a saturation strictly between 0 and 1 the published value is never reached, as long as it lies within the range. -/
theorem C107_from_hsi_violated (w : World) (c : Color) (h s i : ℝ) (hc : Is .hsi c [h, s, i]) (h0 : 0 ≤ h) (h1 : h ≤ 360) (s0 : 0 < s) (s1 : s < 1) (i0 : 0 < i)
    (hr : hsiChannel h s i (hexRed h) ≤ 1) :
    ¬ Gives w c .rgbDeep [hsiChannel h s i (hexRed h), hsiChannel h s i (hexGreen h), hsiChannel h s i (hexBlue h)] := by
  rintro ⟨d, e1, e2, -, -⟩
  obtain ⟨d', e1', e2', -, -⟩ := C107_from_hsi w c h s i hc h0 h1 s0.ne'
  have : ok d = ok d' := by
    rw [converts_iff (by simp) (by simp) hc.col] at e1 e1'
    rw [← e1, ← e1']
  obtain rfl := ok_inj.mp this
  have := e2.comps.symm.trans e2'.comps
  simp only [List.map_cons, List.map_nil, List.cons.injEq, fin.injEq, and_true] at this
  have h2 := this.1
  have hpos : 0 < i * (1 - s) := mul_pos i0 (by linarith)
  have hs := hex_sum h0 h1
  have hx := (hex_range h).1
  have : 0 ≤ 3 * i * s / (hexRed h + hexGreen h + hexBlue h) * hexRed h := by positivity
  have hge : i * (1 - s) ≤ hsiChannel h s i (hexRed h) := by rw [hsiChannel]; linarith
  rw [clip_of (by linarith) (by linarith)] at h2
  linarith

/-! ## C108 CMYK -/

/-- A CMYK object. -/
theorem gives_cmyk {w : World} {c : Color} (hc : IsColor .rgbDeep c) {x y z k : ℝ} (he : Leaf.rgb_deep_to_cmyk c = ok ⟨.cmyk, .cmyk, [fin x, fin y, fin z, fin k], c.malpha, 1, 0, c.space⟩) :
    Gives w c .cmyk [x, y, z, k] := by
  refine ⟨⟨.cmyk, .cmyk, [fin x, fin y, fin z, fin k], c.malpha, 1, 0, c.space⟩, (converts_iff (s := .rgbDeep) (by simp) (by simp) hc).mpr ?_, ⟨⟨rfl, rfl, rfl, rfl, rfl⟩, rfl⟩, ?_, rfl⟩
  · rw [Val.to, if_neg (by simp)]; exact he
  · simp [Color.alpha, hc.cls, Color.scalesAlpha]

/-- C108: CMYK of an RGB colour that is not black: the black share is what the largest channel lacks, the other shares are what the channels lack of the largest one. -/
theorem C108_to_cmyk (w : World) (c : Color) (r g b : ℝ) (h : IsRgb c r g b) (h0 : top r g b ≠ 0) :
    Gives w c .cmyk [1 - r / top r g b, 1 - g / top r g b, 1 - b / top r g b, 1 - top r g b] := by
  obtain ⟨-, -, r0, r1, g0, g1, b0, b1⟩ := id h
  have hr2 : r ≤ top r g b := (le_max_left _ _).trans (le_max_left _ _)
  have hg2 : g ≤ top r g b := (le_max_right _ _).trans (le_max_left _ _)
  have hb2 : b ≤ top r g b := le_max_right _ _
  have hm1 : top r g b ≤ 1 := max_le (max_le r1 g1) b1
  refine gives_cmyk h.col ?_
  conv_lhs => rw [rgb_eq h]
  simp only [Leaf.rgb_deep_to_cmyk, obj_0, obj_1, obj_2, obj_space, obj_malpha, obj_alpha _ _ _ _ _ _ (rfl : Color.scalesAlpha .rgbDeep = false), ok_bind, fmax_fin, one_def,
    sub_exact, Color.construct_cmyk]
  rw [show max (max r g) b = top r g b from rfl]
  generalize top r g b = m at *
  have hm0 : 0 < m := lt_of_le_of_ne (r0.trans hr2) (Ne.symm h0)
  have e : ∀ x : ℝ, 1 - x - (1 - m) = m - x := fun x => by ring
  rw [e, e, e, show 1 - (1 - m) = m by ring]
  have k1 : Color.clamp (fin (1 - m)) 1 0 = fin (1 - m) := clamp01 (by linarith) (by linarith)
  have q : ∀ x, 0 ≤ x → x ≤ m → Color.clamp (fin (m - x) / fin m) 1 0 = fin (1 - x / m) := by
    intro x x0 xm
    rw [div_exact _ _ hm0.ne', clamp01 (div_nonneg (by linarith) hm0.le) (by rw [div_le_one hm0]; linarith)]
    congr 1; field_simp
  simp only [Color.mkCmyk, k1, q r r0 hr2, q g g0 hg2, q b b0 hb2]
  simp only [one_def]

/-- C108: black gets all four shares (the code divides 0 by 0 and the limits turn the result into 1). -/
theorem C108_black (w : World) (c : Color) (h : IsRgb c 0 0 0) : Gives w c .cmyk [1, 1, 1, 1] := by
  refine gives_cmyk h.col ?_
  conv_lhs => rw [rgb_eq h]
  simp only [Leaf.rgb_deep_to_cmyk, obj_0, obj_1, obj_2, obj_space, obj_malpha, obj_alpha _ _ _ _ _ _ (rfl : Color.scalesAlpha .rgbDeep = false), ok_bind, fmax_fin, one_def,
    sub_exact, Color.construct_cmyk, max_self, sub_zero, sub_self, fin_div_zero, show infOf 0 = nan by simp [infOf]]
  have hn : Color.clamp nan 1 0 = fin 1 := by simpa using Color.clamp_nan 1 0 zero_le_one
  have k1 : Color.clamp (fin 1) 1 0 = fin 1 := clamp01 (by norm_num) le_rfl
  simp only [Color.mkCmyk, hn, k1]
  simp only [one_def]

/-- C108: RGB of a CMYK colour. -/
theorem C108_from_cmyk (w : World) (c : Color) (x m y k : ℝ) (hc : Is .cmyk c [x, m, y, k]) (hx : 0 ≤ x ∧ x ≤ 1) (hm : 0 ≤ m ∧ m ≤ 1) (hy : 0 ≤ y ∧ y ≤ 1)
    (hk : 0 ≤ k ∧ k ≤ 1) : Gives w c .rgbDeep [(1 - x) * (1 - k), (1 - m) * (1 - k), (1 - y) * (1 - k)] := by
  refine gives_obj (s := .cmyk) (by simp) (by simp) (by simp) rfl rfl rfl hc.col ?_
  change Leaf.cmyk_to_rgb_deep c = _
  have g0 : c.getComponent 0 = ok (fin x) := by simp [Color.getComponent, hc.comps]
  have g1 : c.getComponent 1 = ok (fin m) := by simp [Color.getComponent, hc.comps]
  have g2 : c.getComponent 2 = ok (fin y) := by simp [Color.getComponent, hc.comps]
  have g3 : c.getComponent 3 = ok (fin k) := by simp [Color.getComponent, hc.comps]
  have ha : c.alpha = c.malpha := by simp [Color.alpha, hc.col.cls, Color.scalesAlpha]
  simp only [Leaf.cmyk_to_rgb_deep, g0, g1, g2, g3, ok_bind, Color.construct_rgbDeep, one_def, sub_exact, mul_exact, ha]
  have q : ∀ z, 0 ≤ z ∧ z ≤ 1 → 0 ≤ (1 - z) * (1 - k) ∧ (1 - z) * (1 - k) ≤ 1 := fun z hz =>
    ⟨mul_nonneg (by linarith [hz.2]) (by linarith [hk.2]), by nlinarith [hz.1, hz.2, hk.1, hk.2]⟩
  rw [mkRgb_obj _ _ (q x hx).1 (q x hx).2 (q m hm).1 (q m hm).2 (q y hy).1 (q y hy).2]

/-! ## C109 grey and 8 bits -/

/-- C109: the grey value of an RGB_DEEP colour is the mean of its channels. -/
theorem C109_grey_deep (w : World) (c : Color) (r g b : ℝ) (h : IsRgb c r g b) : Gives w c .greyDeep [(r + g + b) / 3] := by
  obtain ⟨-, -, r0, r1, g0, g1, b0, b1⟩ := id h
  refine ⟨⟨.greyDeep, .greyDeep, [fin ((r + g + b) / 3)], c.malpha, 1, 0, c.space⟩, (converts_iff (s := .rgbDeep) (by simp) (by simp) h.col).mpr ?_, ⟨⟨rfl, rfl, rfl, rfl, rfl⟩, rfl⟩, ?_, rfl⟩
  · change Leaf.rgb_deep_to_grey_deep c = _
    conv_lhs => rw [rgb_eq h]
    simp only [Leaf.rgb_deep_to_grey_deep, obj_0, obj_1, obj_2, obj_space, obj_malpha, obj_alpha _ _ _ _ _ _ (rfl : Color.scalesAlpha .rgbDeep = false), ok_bind,
      add_exact, lit_def, div_exact _ _ (show (3 : ℝ) ≠ 0 by norm_num), Color.construct_greyDeep, Color.mkGreyDeep,
      clamp01 (show 0 ≤ (r + g + b) / 3 by positivity) (show (r + g + b) / 3 ≤ 1 by linarith)]
  · simp [Color.alpha, h.col.cls, Color.scalesAlpha]

/-- C109: a grey colour has three equal channels. -/
theorem C109_from_grey_deep (w : World) (c : Color) (v : ℝ) (hc : Is .greyDeep c [v]) (h0 : 0 ≤ v) (h1 : v ≤ 1) : Gives w c .rgbDeep [v, v, v] := by
  refine gives_obj (s := .greyDeep) (by simp) (by simp) (by simp) rfl rfl rfl hc.col ?_
  change Leaf.grey_deep_to_rgb_deep c = _
  have g : c.getComponent 0 = ok (fin v) := by simp [Color.getComponent, hc.comps]
  have ha : c.alpha = c.malpha := by simp [Color.alpha, hc.col.cls, Color.scalesAlpha]
  simp only [Leaf.grey_deep_to_rgb_deep, g, ok_bind, Color.constructGrey, Color.construct_rgbDeep, ha, mkRgb_obj _ _ h0 h1 h0 h1 h0 h1]

/-- Converting `c` to the type `t` gives a colour with the components `xs`, the opacity `a` (as a share of 1) and the same colour space. -/
def FormulaSpec.GivesWith (w : World) (c : Color) (t : ColorType) (xs : List ℝ) (a : ℝ) : Prop :=
  ∃ d, Converts w c t d ∧ Is t d xs ∧ d.malpha = fin a ∧ d.space = c.space

/-- The number `x` between 0 and 1 as an 8-bit number. -/
noncomputable def FormulaSpec.byte (x : ℝ) : ℝ := ⌊255 * x + 1 / 2⌋

/-- The object `Is` describes. -/
noncomputable def Formula.objL (t : ColorType) (xs : List ℝ) (a : ℝ) (sp : Option Nat) : Color := ⟨t, t, xs.map fin, fin a, Color.maxOf t, Color.minOf t, sp⟩

omit [FloatModel] [ExactModel] in
theorem Formula.objL_eq {t : ColorType} {c : Color} {xs : List ℝ} {a : ℝ} (h : Is t c xs) (ha : c.malpha = fin a) : c = objL t xs a c.space := by
  obtain ⟨⟨h1, h2, -, h3, h4⟩, h5⟩ := h
  cases c
  simp_all [objL]

omit [ExactModel] in
theorem Formula.gives_objL {s t : ColorType} (hs : s ≠ .undefined) (ht : t ≠ .undefined) (hst : s ≠ t) {w : World} {c : Color} {xs ys : List ℝ} {a b : ℝ} (hc : Is s c xs)
    (ha : c.malpha = fin a) (hy : ys.length = Color.count t) (he : ∀ sp, Val.conv s t w (objL s xs a sp) = ok (objL t ys b sp)) : GivesWith w c t ys b := by
  refine ⟨objL t ys b c.space, (converts_iff hs ht hc.col).mpr ?_, ⟨⟨rfl, rfl, by simp [objL, hy], rfl, rfl⟩, rfl⟩, rfl, rfl⟩
  rw [Val.to, if_neg hst, ← he, ← objL_eq hc ha]

omit [FloatModel] [ExactModel] in
theorem Formula.byte_range {x : ℝ} (h0 : 0 ≤ x) (h1 : x ≤ 1) : 0 ≤ byte x ∧ byte x ≤ 255 := by
  unfold byte
  constructor
  · exact_mod_cast Int.floor_nonneg.mpr (by positivity)
  · have : ⌊255 * x + 1 / 2⌋ < 256 := Int.floor_lt.mpr (by norm_num; linarith)
    exact_mod_cast Int.le_of_lt_add_one this

omit [FloatModel] [ExactModel] in
theorem Formula.round_byte {x : ℝ} (h0 : 0 ≤ x) : ((roundR (x * 255) : ℤ) : ℝ) = byte x := by
  rw [roundR, if_pos (by positivity), byte, mul_comm x 255]

omit [FloatModel] [ExactModel] in
theorem Formula.clamp255 {x : ℝ} (h0 : 0 ≤ x) (h1 : x ≤ 255) : Color.clamp (fin x) 255 0 = fin x := by
  simpa using Color.clamp_of_inRange (v := fin x) (mn := 0) (mx := 255) (by simp [h0, h1])

theorem Formula.div255 {x : ℝ} (h0 : 0 ≤ x) (h1 : x ≤ 255) : Color.clamp (fin x / 255) 1 0 = fin (x / 255) := by
  rw [lit_def, div_exact _ _ (by norm_num), clamp01 (by positivity) (by linarith)]

theorem Formula.true_alpha {t : ColorType} (ht : Color.scalesAlpha t = true) (xs : List ℝ) (a : ℝ) (sp : Option Nat) : (objL t xs a sp).alpha = fin (a * 255) := by
  simp [Color.alpha, objL, ht, mul_exact]

omit [ExactModel] in
theorem Formula.deep_alpha {t : ColorType} (ht : Color.scalesAlpha t = false) (xs : List ℝ) (a : ℝ) (sp : Option Nat) : (objL t xs a sp).alpha = fin a := by
  simp [Color.alpha, objL, ht]

omit [FloatModel] [ExactModel] in
@[simp] theorem Formula.objL_0 (t : ColorType) (x : ℝ) (xs : List ℝ) (a : ℝ) (sp : Option Nat) : (objL t (x :: xs) a sp).getComponent 0 = ok (fin x) := by
  simp [objL, Color.getComponent]
omit [FloatModel] [ExactModel] in
@[simp] theorem Formula.objL_1 (t : ColorType) (x y : ℝ) (xs : List ℝ) (a : ℝ) (sp : Option Nat) : (objL t (x :: y :: xs) a sp).getComponent 1 = ok (fin y) := by
  simp [objL, Color.getComponent]
omit [FloatModel] [ExactModel] in
@[simp] theorem Formula.objL_2 (t : ColorType) (x y z : ℝ) (xs : List ℝ) (a : ℝ) (sp : Option Nat) : (objL t (x :: y :: z :: xs) a sp).getComponent 2 = ok (fin z) := by
  simp [objL, Color.getComponent]
omit [FloatModel] [ExactModel] in
@[simp] theorem Formula.objL_space (t : ColorType) (xs : List ℝ) (a : ℝ) (sp : Option Nat) : (objL t xs a sp).space = sp := rfl

section bits
variable (w : World) (c : Color) (a : ℝ) (ha : c.malpha = fin a) (a0 : 0 ≤ a) (a1 : a ≤ 1)
include ha a0 a1

/-- C109: RGB_TRUE to RGB_DEEP divides by 255. -/
theorem C109_true_to_deep (r g b : ℝ) (hc : Is .rgbTrue c [r, g, b]) (hr : 0 ≤ r ∧ r ≤ 255) (hg : 0 ≤ g ∧ g ≤ 255) (hb : 0 ≤ b ∧ b ≤ 255) :
    GivesWith w c .rgbDeep [r / 255, g / 255, b / 255] a := by
  refine gives_objL (by simp) (by simp) (by simp) hc ha rfl fun sp => ?_
  change Leaf.rgb_true_to_rgb_deep _ = _
  simp only [Leaf.rgb_true_to_rgb_deep, objL_0, objL_1, objL_2, objL_space, true_alpha (rfl : Color.scalesAlpha .rgbTrue = true), ok_bind, Color.construct_rgbDeep, Color.mkRgbDeep,
    div255 hr.1 hr.2, div255 hg.1 hg.2, div255 hb.1 hb.2]
  rw [lit_def, div_exact _ _ (by norm_num), mul_div_cancel_right₀ _ (by norm_num)]
  rfl

/-- C109: RGB_DEEP to RGB_TRUE multiplies by 255 and rounds to the nearest integer. -/
theorem C109_deep_to_true (r g b : ℝ) (hc : Is .rgbDeep c [r, g, b]) (hr : 0 ≤ r ∧ r ≤ 1) (hg : 0 ≤ g ∧ g ≤ 1) (hb : 0 ≤ b ∧ b ≤ 1) :
    GivesWith w c .rgbTrue [byte r, byte g, byte b] (byte a / 255) := by
  refine gives_objL (by simp) (by simp) (by simp) hc ha rfl fun sp => ?_
  change Leaf.rgb_deep_to_rgb_true _ = _
  obtain ⟨p0, p1⟩ := byte_range hr.1 hr.2
  obtain ⟨q0, q1⟩ := byte_range hg.1 hg.2
  obtain ⟨s0, s1⟩ := byte_range hb.1 hb.2
  obtain ⟨t0, t1⟩ := byte_range a0 a1
  have e : ∀ x : ℝ, 0 ≤ x → round (fin x * 255) = fin (byte x) := fun x hx => by rw [lit_def, mul_exact, round_fin, round_byte hx]
  simp only [Leaf.rgb_deep_to_rgb_true, objL_0, objL_1, objL_2, objL_space, deep_alpha (rfl : Color.scalesAlpha .rgbDeep = false), ok_bind, Color.construct_rgbTrue, Color.mkRgbTrue,
    e r hr.1, e g hg.1, e b hb.1, e a a0, clamp255 p0 p1, clamp255 q0 q1, clamp255 s0 s1, div255 t0 t1]
  rfl

/-- C109: the grey value of an RGB_TRUE colour is the mean of its channels; it is not rounded. -/
theorem C109_true_to_grey (r g b : ℝ) (hc : Is .rgbTrue c [r, g, b]) (hr : 0 ≤ r ∧ r ≤ 255) (hg : 0 ≤ g ∧ g ≤ 255) (hb : 0 ≤ b ∧ b ≤ 255) :
    GivesWith w c .greyTrue [(r + g + b) / 3] a := by
  refine gives_objL (by simp) (by simp) (by simp) hc ha rfl fun sp => ?_
  change Leaf.rgb_true_to_grey_true _ = _
  simp only [Leaf.rgb_true_to_grey_true, objL_0, objL_1, objL_2, objL_space, true_alpha (rfl : Color.scalesAlpha .rgbTrue = true), ok_bind, Color.construct_greyTrue, Color.mkGreyTrue,
    div255 (show 0 ≤ a * 255 by positivity) (by linarith), add_exact]
  rw [mul_div_cancel_right₀ _ (by norm_num), lit_def 3, div_exact _ _ (by norm_num), clamp255 (by linarith [hr.1, hg.1, hb.1]) (by linarith [hr.2, hg.2, hb.2])]
  rfl

/-- C109: RGB_TRUE to GREY_DEEP: mean of the channels divided by 255. -/
theorem C109_true_to_grey_deep (r g b : ℝ) (hc : Is .rgbTrue c [r, g, b]) (hr : 0 ≤ r ∧ r ≤ 255) (hg : 0 ≤ g ∧ g ≤ 255) (hb : 0 ≤ b ∧ b ≤ 255) :
    GivesWith w c .greyDeep [(r + g + b) / 3 / 255] a := by
  refine gives_objL (by simp) (by simp) (by simp) hc ha rfl fun sp => ?_
  have h0 : 0 ≤ (r + g + b) / 3 := by linarith [hr.1, hg.1, hb.1]
  have h1 : (r + g + b) / 3 ≤ 255 := by linarith [hr.2, hg.2, hb.2]
  have e : Leaf.rgb_true_to_grey_true (objL .rgbTrue [r, g, b] a sp) = ok (objL .greyTrue [(r + g + b) / 3] a sp) := by
    simp only [Leaf.rgb_true_to_grey_true, objL_0, objL_1, objL_2, objL_space, true_alpha (rfl : Color.scalesAlpha .rgbTrue = true), ok_bind, Color.construct_greyTrue,
      Color.mkGreyTrue, div255 (show 0 ≤ a * 255 by positivity) (by linarith), add_exact]
    rw [mul_div_cancel_right₀ _ (by norm_num), lit_def 3, div_exact _ _ (by norm_num), clamp255 h0 h1]
    rfl
  change Val.rgb_true_to_grey_deep w _ = _
  have hcp : (objL .greyTrue [(r + g + b) / 3] a sp).copy = objL .greyTrue [(r + g + b) / 3] a sp := by
    simp only [Color.copy, Color.setAlpha, true_alpha (rfl : Color.scalesAlpha .greyTrue = true)]
    have := div255 (show 0 ≤ a * 255 by positivity) (by linarith : a * 255 ≤ 255)
    rw [show (objL .greyTrue [(r + g + b) / 3] a sp).cls = .greyTrue from rfl, if_pos (show Color.scalesAlpha .greyTrue = true from rfl), this, mul_div_cancel_right₀ _ (by norm_num)]
    rfl
  simp only [Val.rgb_true_to_grey_deep, e, ok_bind, Leaf.grey_copy_to_deep, hcp, objL_0, objL_space, true_alpha (rfl : Color.scalesAlpha .greyTrue = true), Color.construct_greyDeep,
    Color.mkGreyDeep, div255 h0 h1]
  rw [lit_def 255, div_exact _ _ (by norm_num), mul_div_cancel_right₀ _ (by norm_num)]
  rfl

/-- C109: GREY_TRUE to RGB_TRUE, GREY_DEEP and RGB_DEEP. -/
theorem C109_grey_true (v : ℝ) (hc : Is .greyTrue c [v]) (hv : 0 ≤ v ∧ v ≤ 255) :
    GivesWith w c .rgbTrue [v, v, v] a ∧ GivesWith w c .greyDeep [v / 255] a ∧ GivesWith w c .rgbDeep [v / 255, v / 255, v / 255] a := by
  have ea : fin (a * 255) / 255 = fin a := by rw [lit_def, div_exact _ _ (by norm_num), mul_div_cancel_right₀ _ (by norm_num)]
  have ec := div255 (show 0 ≤ a * 255 by positivity) (by linarith : a * 255 ≤ 255)
  rw [mul_div_cancel_right₀ _ (by norm_num)] at ec
  refine ⟨?_, ?_, ?_⟩
  · refine gives_objL (by simp) (by simp) (by simp) hc ha rfl fun sp => ?_
    change Leaf.grey_true_to_rgb_true _ = _
    simp only [Leaf.grey_true_to_rgb_true, objL_0, objL_space, true_alpha (rfl : Color.scalesAlpha .greyTrue = true), ok_bind, Color.constructGrey, Color.construct_rgbTrue,
      Color.mkRgbTrue, clamp255 hv.1 hv.2, ec]
    rfl
  · refine gives_objL (by simp) (by simp) (by simp) hc ha rfl fun sp => ?_
    change Leaf.grey_true_to_grey_deep _ = _
    simp only [Leaf.grey_true_to_grey_deep, objL_0, objL_space, true_alpha (rfl : Color.scalesAlpha .greyTrue = true), ok_bind, Color.construct_greyDeep,
      Color.mkGreyDeep, div255 hv.1 hv.2, ea]
    rfl
  · refine gives_objL (by simp) (by simp) (by simp) hc ha rfl fun sp => ?_
    change Leaf.grey_true_to_rgb_deep _ = _
    simp only [Leaf.grey_true_to_rgb_deep, objL_0, objL_space, true_alpha (rfl : Color.scalesAlpha .greyTrue = true), ok_bind, Color.constructGrey, Color.construct_rgbDeep,
      Color.mkRgbDeep, div255 hv.1 hv.2, ea]
    rfl

/-- C109: GREY_DEEP to the 8-bit types. -/
theorem C109_grey_deep_to_true (v : ℝ) (hc : Is .greyDeep c [v]) (hv : 0 ≤ v ∧ v ≤ 1) :
    GivesWith w c .rgbTrue [byte v, byte v, byte v] (byte a / 255) ∧ GivesWith w c .greyTrue [byte v] (byte a / 255) := by
  obtain ⟨p0, p1⟩ := byte_range hv.1 hv.2
  obtain ⟨t0, t1⟩ := byte_range a0 a1
  have e : ∀ x : ℝ, 0 ≤ x → round (fin x * 255) = fin (byte x) := fun x hx => by rw [lit_def, mul_exact, round_fin, round_byte hx]
  refine ⟨?_, ?_⟩
  · refine gives_objL (by simp) (by simp) (by simp) hc ha rfl fun sp => ?_
    change Leaf.grey_deep_to_rgb_true _ = _
    simp only [Leaf.grey_deep_to_rgb_true, objL_0, objL_space, deep_alpha (rfl : Color.scalesAlpha .greyDeep = false), ok_bind, Color.constructGrey, Color.construct_rgbTrue,
      Color.mkRgbTrue, e v hv.1, e a a0, clamp255 p0 p1, div255 t0 t1]
    rfl
  · refine gives_objL (by simp) (by simp) (by simp) hc ha rfl fun sp => ?_
    change Leaf.grey_deep_to_grey_true _ = _
    simp only [Leaf.grey_deep_to_grey_true, objL_0, objL_space, deep_alpha (rfl : Color.scalesAlpha .greyDeep = false), ok_bind, Color.construct_greyTrue,
      Color.mkGreyTrue, e v hv.1, e a a0, clamp255 p0 p1, div255 t0 t1]
    rfl

end bits

end

/-! ## Concrete cases -/

/- Orange: hue 30 degrees. -/
example : HueOf 1 (1 / 2) 0 30 := by
  refine ⟨by norm_num, by norm_num, ?_, ?_, ?_, ?_⟩ <;> norm_num [top, bot, hexRed, hexGreen, hexBlue, clip, abs_of_neg, abs_of_pos]

/- A bluish grey: hue 240 degrees. -/
example : HueOf (1 / 4) (1 / 4) (3 / 4) 240 := by
  refine ⟨by norm_num, by norm_num, ?_, ?_, ?_, ?_⟩ <;> norm_num [top, bot, hexRed, hexGreen, hexBlue, clip, abs_of_neg, abs_of_pos]

/- The hypotheses of C104 to C109 are met by objects built with the constructors. -/
example [FloatModel] : IsRgb (Color.mkRgbDeep 1 (fin (1 / 2)) 0 1 none) 1 (1 / 2) 0 :=
  ⟨⟨rfl, rfl, rfl, rfl, rfl⟩, by simp only [Color.mkRgbDeep, one_def, zero_def, Color.clamp_fin]; norm_num, by norm_num, by norm_num, by norm_num, by norm_num, by norm_num, by norm_num⟩

example [FloatModel] : Is .hsv (obj .hsv 210 (1 / 2) (3 / 4) 1 none) [210, 1 / 2, 3 / 4] := obj_is rfl _ _ _ _ _

example [FloatModel] : Is .hsl (obj .hsl 210 (1 / 2) (3 / 4) 1 none) [210, 1 / 2, 3 / 4] := obj_is rfl _ _ _ _ _

example [FloatModel] : Is .cmyk ⟨.cmyk, .cmyk, [fin 1, fin 0.5, fin 0.25, fin 0.75], 1, 1, 0, none⟩ [1, 0.5, 0.25, 0.75] := ⟨⟨rfl, rfl, rfl, rfl, rfl⟩, rfl⟩

/- Hypotheses of C107_from_hsi_violated: hue 60, half saturation, intensity 1/2. -/
example : hsiChannel 60 (1 / 2) (1 / 2) (hexRed 60) ≤ 1 := by
  norm_num [hsiChannel, hexRed, hexGreen, hexBlue, clip, abs_of_neg, abs_of_pos]

/- What the formulas say for the orange above and for HSV (210, 1/2, 3/4). -/
example [FloatModel] [ExactModel] (w : World) (c : Color) (h : Is .hsv c [210, 1 / 2, 3 / 4]) : Gives w c .rgbDeep [3 / 8, 9 / 16, 3 / 4] := by
  have := C104_from_hsv w c 210 (1 / 2) (3 / 4) h (by norm_num) (by norm_num) (by norm_num) (by norm_num) (by norm_num) (by norm_num)
  norm_num [hexRed, hexGreen, hexBlue, clip, abs_of_neg, abs_of_pos] at this
  exact this

/- An 8-bit colour, half transparent. -/
example : Is .rgbTrue (objL .rgbTrue [255, 128, 7] 0.5 none) [255, 128, 7] ∧ (objL .rgbTrue [255, 128, 7] 0.5 none).malpha = fin 0.5 := ⟨⟨⟨rfl, rfl, rfl, rfl, rfl⟩, rfl⟩, rfl⟩

example : byte (1 / 2) = 128 ∧ byte 1 = 255 ∧ byte 0 = 0 := by
  unfold byte; norm_num

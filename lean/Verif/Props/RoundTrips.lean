import Verif.TripLemmas
import Verif.SmallError

/-!
# Round trips between RGB and the hue-based spaces, CMYK and grey (C38–C45)

`Trip w c t s c'` says: converting `c` to type `t` and the result to type `s` with the library's dispatchers gives `c'` – the whole object, with components,
opacity and colour space.  Exact arithmetic (`ExactModel`), except C38, which holds for every arithmetic with a small rounding error.
-/

open Outcome Fl Prog ObjectSpec ConvSpec Hue

section
variable [FloatModel]

/-- An RGB_DEEP colour object. -/
noncomputable def rgbOf (r g b : ℝ) (al : Fl) (sp : Option Nat) : Color := ⟨.rgbDeep, .rgbDeep, [fin r, fin g, fin b], al, 1, 0, sp⟩

theorem isRgb_rgbOf {r g b : ℝ} (al : Fl) (sp : Option Nat) (h : 0 ≤ r ∧ r ≤ 1 ∧ 0 ≤ g ∧ g ≤ 1 ∧ 0 ≤ b ∧ b ≤ 1) : IsRgb (rgbOf r g b al sp) r g b :=
  ⟨⟨rfl, rfl, rfl, rfl, rfl⟩, rfl, h.1, h.2.1, h.2.2.1, h.2.2.2.1, h.2.2.2.2.1, h.2.2.2.2.2⟩

theorem obj_rgb {c : Color} {r g b : ℝ} (h : IsRgb c r g b) (x y z : ℝ) : obj .rgbDeep x y z c.malpha c.space = { c with comps := [fin x, fin y, fin z] } := by
  obtain ⟨⟨h1, h2, -, h3, h4⟩, -⟩ := h
  cases c
  simp only at h1 h2 h3 h4
  simp [obj, h1, h2, h3, h4]

end

/-! ## C38 -/

section
variable [FloatModel] [SmallError]

/-- A value close to `n/255` becomes `n` again. -/
theorem back_to_byte {n : ℕ} (hn : n ≤ 255) {x : ℝ} (hx : |x - n / 255| ≤ 1 / 10000) : Fl.round (fin x * 255) = fin n := by
  have hn0 : (0 : ℝ) ≤ n := Nat.cast_nonneg n
  have hn1 : (n : ℝ) ≤ 255 := by exact_mod_cast hn
  rw [abs_le] at hx
  have hx' : |x * 255 - n| ≤ 255 / 10000 := by rw [abs_le]; constructor <;> linarith
  obtain ⟨y, hy, he⟩ := near (x * 255) (by rw [abs_le] at hx' ⊢; constructor <;> linarith)
  have hb : |x * 255| ≤ 256 := by rw [abs_le] at hx' ⊢; constructor <;> linarith
  have : |y - n| < 1 / 2 := by
    rw [abs_le] at hx'
    have he' : |y - x * 255| ≤ 257 / 1000000 := he.trans (by linarith)
    rw [abs_le] at he'
    rw [abs_lt]; constructor <;> linarith
  simp only [lit_def]
  rw [fin_mul, hy, round_fin, roundR_near this]
  simp

/-- A byte divided by 255. -/
theorem byte_frac {n : ℕ} (hn : n ≤ 255) : ∃ x, Color.clamp (fin n / 255) 1 0 = fin x ∧ |x - n / 255| ≤ 1 / 100000 := by
  have hn0 : (0 : ℝ) ≤ n := Nat.cast_nonneg n
  have hn1 : (n : ℝ) ≤ 255 := by exact_mod_cast hn
  have h0 : (0 : ℝ) ≤ n / 255 := by positivity
  have h1 : (n : ℝ) / 255 ≤ 1 := by rw [div_le_one (by norm_num)]; exact hn1
  obtain ⟨y, hy, he⟩ := near ((n : ℝ) / 255) (by rw [abs_le]; constructor <;> linarith)
  rw [abs_of_nonneg h0] at he
  have he' : |y - n / 255| ≤ 1 / 100000 := he.trans (by linarith)
  simp only [lit_def, one_def, zero_def]
  rw [fin_div _ _ (by norm_num), hy, Color.clamp_fin]
  refine ⟨_, rfl, ?_⟩
  rw [abs_le] at he' ⊢
  constructor
  · have := le_max_left (min y 1) 0
    have : min (n / 255 - 1 / 100000 : ℝ) 1 ≤ min y 1 := min_le_min_right _ (by linarith)
    rw [min_eq_left (by linarith)] at this
    linarith
  · have : min y 1 ≤ y := min_le_left _ _
    have : max (min y 1) 0 ≤ max (n / 255 + 1 / 100000 : ℝ) 0 := max_le_max_right _ (by linarith)
    rw [max_eq_left (show (0 : ℝ) ≤ n / 255 + 1 / 100000 by linarith)] at this
    linarith

/-- The two conversions of C38 at the level of values. -/
theorem true_deep_vals (R G B A : ℕ) (hR : R ≤ 255) (hG : G ≤ 255) (hB : B ≤ 255) (hA : A ≤ 255) (sp : Option Nat) (c : Color)
    (hc : Color.construct .rgbTrue [fin R, fin G, fin B] (fin A) sp = ok c) : ∃ al,
      Leaf.rgb_true_to_rgb_deep c = ok (Color.mkRgbDeep (fin R / 255) (fin G / 255) (fin B / 255) al sp) ∧
      Leaf.rgb_deep_to_rgb_true (Color.mkRgbDeep (fin R / 255) (fin G / 255) (fin B / 255) al sp) = ok c := by
  rw [Color.construct_rgbTrue, ok_inj] at hc
  subst hc
  have cl : ∀ n : ℕ, n ≤ 255 → Color.clamp (fin n) 255 0 = fin n := by
    intro n hn
    have hn0 : (0 : ℝ) ≤ n := Nat.cast_nonneg n
    have hn1 : (n : ℝ) ≤ 255 := by exact_mod_cast hn
    simp [Color.clamp_fin, hn1]
  obtain ⟨xr, hr, er⟩ := byte_frac hR
  obtain ⟨xg, hg, eg⟩ := byte_frac hG
  obtain ⟨xb, hb, eb⟩ := byte_frac hB
  obtain ⟨xa, ha, ea⟩ := byte_frac hA
  have hA0 : (0 : ℝ) ≤ A := Nat.cast_nonneg A
  have hA1 : (A : ℝ) ≤ 255 := by exact_mod_cast hA
  rw [abs_le] at ea
  have ea' : |xa * 255 - A| ≤ 255 / 100000 := by rw [abs_le]; constructor <;> linarith
  obtain ⟨ya, hy, ey⟩ := near (xa * 255) (by rw [abs_le] at ea' ⊢; constructor <;> linarith)
  have ey' : |ya - A| ≤ 3 / 1000 := by
    have : |xa * 255| ≤ 256 := by rw [abs_le] at ea' ⊢; constructor <;> linarith
    have ey : |ya - xa * 255| ≤ 257 / 1000000 := ey.trans (by linarith)
    rw [abs_le] at ey ea' ⊢
    constructor <;> linarith
  obtain ⟨za, hz, ez⟩ := near (ya / 255) (by rw [abs_le] at ey' ⊢; constructor <;> linarith)
  have ez' : |za - A / 255| ≤ 1 / 10000 := by
    have : |ya / 255| ≤ 2 := by rw [abs_le] at ey' ⊢; constructor <;> linarith
    have ez : |za - ya / 255| ≤ 3 / 1000000 := ez.trans (by linarith)
    rw [abs_le] at ez ey' ⊢
    constructor <;> linarith
  have w4 : ∀ x n : ℝ, |x - n| ≤ 1 / 100000 → |x - n| ≤ 1 / 10000 := fun x n h => h.trans (by norm_num)
  refine ⟨fin za, ?_, ?_⟩
  · have e : Fl.mul (fin xa) 255 = fin ya := by
      change fin xa * 255 = fin ya
      simp only [lit_def]; rw [fin_mul, hy]
    have e2 : fin ya / 255 = fin za := by simp only [lit_def]; rw [fin_div _ _ (by norm_num), hz]
    have al : (Color.mkRgbTrue (fin R) (fin G) (fin B) (fin A) sp).alpha = fin ya := by
      simp only [Color.alpha, Color.mkRgbTrue, Color.scalesAlpha, if_true, ha]
      exact e
    simp only [Leaf.rgb_true_to_rgb_deep, al, e2]
    simp only [Color.mkRgbTrue, Conv.get3_0, Conv.get3_1, Conv.get3_2, ok_bind, cl R hR, cl G hG, cl B hB, Color.construct_rgbDeep]
  · simp only [Leaf.rgb_deep_to_rgb_true, Color.mkRgbDeep, hr, hg, hb, Conv.get3_0, Conv.get3_1, Conv.get3_2, ok_bind, Color.alpha, Color.scalesAlpha,
      Bool.false_eq_true, if_false, back_to_byte hR (w4 _ _ er), back_to_byte hG (w4 _ _ eg), back_to_byte hB (w4 _ _ eb), back_to_byte hA ez',
      Color.construct_rgbTrue]

/-- **C38** For every rounding with small error: an RGB_TRUE colour with integer channels and integer opacity survives the trip through RGB_DEEP unchanged. -/
theorem C38_true_deep (w : World) (R G B A : ℕ) (hR : R ≤ 255) (hG : G ≤ 255) (hB : B ≤ 255) (hA : A ≤ 255) (sp : Option Nat) (c : Color)
    (hc : Color.construct .rgbTrue [fin R, fin G, fin B] (fin A) sp = ok c) : Trip w c .rgbDeep .rgbTrue c := by
  obtain ⟨al, h1, h2⟩ := true_deep_vals R G B A hR hG hB hA sp c hc
  refine trip_of (s := .rgbTrue) (by decide) (by decide) (by decide) ?_ h1 h2
  rw [Color.construct_rgbTrue, ok_inj] at hc
  subst hc
  exact ⟨rfl, rfl, rfl, rfl, rfl⟩

/-- Case: a half transparent orange. -/
example (w : World) : Trip w (Color.mkRgbTrue (fin (255 : ℕ)) (fin (128 : ℕ)) (fin (0 : ℕ)) (fin (127 : ℕ)) none) .rgbDeep .rgbTrue
    (Color.mkRgbTrue (fin (255 : ℕ)) (fin (128 : ℕ)) (fin (0 : ℕ)) (fin (127 : ℕ)) none) :=
  C38_true_deep w 255 128 0 127 (by norm_num) (by norm_num) (by norm_num) (by norm_num) none _ (Color.construct_rgbTrue _ _ _ _ _)

end

section
variable [FloatModel] [ExactModel]

/-- **C39** RGB_DEEP → CMYK → RGB_DEEP is the identity, for black too. -/
theorem C39_cmyk (w : World) (c : Color) (r g b : ℝ) (h : IsRgb c r g b) : Trip w c .cmyk .rgbDeep c := by
  obtain ⟨d, h1, h2⟩ := cmyk_trip h
  exact trip_of (s := .rgbDeep) (by decide) (by decide) (by decide) h.col h1 h2

example (w : World) : Trip w (rgbOf 0.2 1 0.5 (fin 0.3) none) .cmyk .rgbDeep (rgbOf 0.2 1 0.5 (fin 0.3) none) :=
  C39_cmyk w _ _ _ _ (isRgb_rgbOf _ _ (by norm_num))
example (w : World) : Trip w (rgbOf 0 0 0 1 none) .cmyk .rgbDeep (rgbOf 0 0 0 1 none) :=
  C39_cmyk w _ _ _ _ (isRgb_rgbOf _ _ (by norm_num))

/-! ## C40 HSV -/

/-- The result of the HSV round trip for every colour. -/
theorem hsv_result (w : World) (c : Color) (r g b : ℝ) (h : IsRgb c r g b) :
    Trip w c .hsv .rgbDeep { c with comps := [fin r, fin g, fin (gapBlue r g b)] } := by
  obtain ⟨d, h1, h2⟩ := hsv_trip h
  rw [obj_rgb h] at h2
  exact trip_of (s := .rgbDeep) (by decide) (by decide) (by decide) h.col h1 h2

omit [FloatModel] [ExactModel] in
theorem gapBlue_ne {r g b : ℝ} (hg : HueGap r g b) : b < gapBlue r g b ∧ gapBlue r g b < b + (r - g) / 60 := by
  rw [gapBlue, if_pos hg]; constructor <;> linarith [hg.1, hg.2]

/-- **C40 (partial)** RGB_DEEP → HSV → RGB_DEEP is the identity for every colour whose hue is not strictly between 359 and 360 degrees.
The full statement (for every colour) is false, see `C40_gap_violated`. -/
theorem C40_hsv_partial (w : World) (c : Color) (r g b : ℝ) (h : IsRgb c r g b) (hgap : ¬ HueGap r g b) : Trip w c .hsv .rgbDeep c := by
  have := hsv_result w c r g b h
  rwa [gapBlue, if_neg hgap, ← h.comps] at this

/-- **C40 (partial)** For the remaining colours only the blue channel changes, by less than 1/60. -/
theorem C40_gap_partial (w : World) (c : Color) (r g b : ℝ) (h : IsRgb c r g b) :
    ∃ b', Trip w c .hsv .rgbDeep { c with comps := [fin r, fin g, fin b'] } ∧ |b' - b| < 1 / 60 := by
  refine ⟨_, hsv_result w c r g b h, ?_⟩
  by_cases hg : HueGap r g b
  · have := gapBlue_ne hg
    have : (r - g) / 60 ≤ 1 / 60 := by linarith [h.r1, h.g0]
    rw [abs_lt]; constructor <;> linarith
  · rw [gapBlue, if_neg hg, sub_self, abs_zero]; norm_num

/-- **C40 violated** No colour whose hue is strictly between 359 and 360 degrees survives: the hue is limited to 359. -/
theorem C40_gap_violated (w : World) (c : Color) (r g b : ℝ) (h : IsRgb c r g b) (hgap : HueGap r g b) : ¬ Trip w c .hsv .rgbDeep c := by
  intro ht
  have e := congrArg Color.comps (ht.unique (hsv_result w c r g b h))
  rw [h.comps] at e
  simp only [List.cons.injEq, fin.injEq, true_and, and_true] at e
  linarith [(gapBlue_ne hgap).1]

/-- Cases: orange survives, a slightly bluish red does not. -/
example (w : World) : Trip w (rgbOf 1 0.5 0 1 none) .hsv .rgbDeep (rgbOf 1 0.5 0 1 none) :=
  C40_hsv_partial w _ _ _ _ (isRgb_rgbOf _ _ (by norm_num)) (by norm_num [HueGap])
example (w : World) : ¬ Trip w (rgbOf 1 0 (1 / 120) 1 none) .hsv .rgbDeep (rgbOf 1 0 (1 / 120) 1 none) :=
  C40_gap_violated w _ _ _ _ (isRgb_rgbOf _ _ (by norm_num)) (by norm_num [HueGap])

/-! ## C41 HSL -/

/-- The result of the HSL round trip for every colour but black. -/
theorem hsl_result (w : World) (c : Color) (r g b : ℝ) (h : IsRgb c r g b) (hb : ¬ (r = 0 ∧ g = 0 ∧ b = 0)) :
    Trip w c .hsl .rgbDeep { c with comps := [fin r, fin g, fin (gapBlue r g b)] } := by
  obtain ⟨d, h1, h2⟩ := hsl_trip h hb
  rw [obj_rgb h] at h2
  exact trip_of (s := .rgbDeep) (by decide) (by decide) (by decide) h.col h1 h2

/-- Black becomes transparent. -/
theorem hsl_black (w : World) (c : Color) (h : IsRgb c 0 0 0) : Trip w c .hsl .rgbDeep { c with malpha := 0 } := by
  have e : obj .rgbDeep 0 0 0 0 c.space = { c with malpha := 0 } := by
    obtain ⟨⟨h1, h2, -, h3, h4⟩, h5, -⟩ := h
    cases c
    simp only at h1 h2 h3 h4 h5
    simp [obj, h1, h2, h3, h4, h5]
  refine trip_of (s := .rgbDeep) (d := obj .hsl 0 0 0 c.malpha c.space) (by decide) (by decide) (by decide) h.col ?_ ?_
  · change Leaf.rgb_deep_to_hsl c = _
    rw [rgb_eq h]
    simp only [Leaf.rgb_deep_to_hsl, obj_0, obj_1, obj_2, obj_space, obj_malpha, obj_alpha _ _ _ _ _ _ (rfl : Color.scalesAlpha .rgbDeep = false), ok_bind, fmin_fin, fmax_fin,
      feq_fin, Color.construct_hsl, max_self, min_self, if_true]
    rw [mkHue_grey _ _ _ ⟨rfl, rfl⟩ le_rfl (by norm_num)]
  · change Leaf.hsl_to_rgb_deep _ = _
    simp only [Leaf.hsl_to_rgb_deep, obj_0, obj_1, obj_2, obj_space, ok_bind, zero_def, feq_fin, if_true, Color.constructGrey, Color.construct_rgbDeep]
    rw [mkRgb_obj _ _ le_rfl (by norm_num) le_rfl (by norm_num) le_rfl (by norm_num)]
    simp only [zero_def] at e
    exact congrArg ok e

/-- **C41 (partial)** RGB_DEEP → HSL → RGB_DEEP is the identity for every colour that is not black and whose hue is not strictly between 359 and 360
degrees, and for fully transparent black.  The full statement is false, see `C41_gap_violated` and `C41_black_violated`. -/
theorem C41_hsl_partial (w : World) (c : Color) (r g b : ℝ) (h : IsRgb c r g b) (hgap : ¬ HueGap r g b)
    (hb : (r = 0 ∧ g = 0 ∧ b = 0) → c.malpha = 0) : Trip w c .hsl .rgbDeep c := by
  by_cases hk : r = 0 ∧ g = 0 ∧ b = 0
  · have ha := hb hk
    obtain ⟨rfl, rfl, rfl⟩ := hk
    have := hsl_black w c h
    rwa [← ha] at this
  · have := hsl_result w c r g b h hk
    rwa [gapBlue, if_neg hgap, ← h.comps] at this

/-- **C41 violated** Colours whose hue is strictly between 359 and 360 degrees do not survive. -/
theorem C41_gap_violated (w : World) (c : Color) (r g b : ℝ) (h : IsRgb c r g b) (hgap : HueGap r g b) : ¬ Trip w c .hsl .rgbDeep c := by
  intro ht
  have hk : ¬ (r = 0 ∧ g = 0 ∧ b = 0) := by
    rintro ⟨rfl, rfl, rfl⟩
    exact absurd hgap.1 (lt_irrefl 0)
  have e := congrArg Color.comps (ht.unique (hsl_result w c r g b h hk))
  rw [h.comps] at e
  simp only [List.cons.injEq, fin.injEq, true_and, and_true] at e
  linarith [(gapBlue_ne hgap).1]

/-- **C41 violated** Black comes back fully transparent, so it survives only if it was. -/
theorem C41_black_violated (w : World) (c : Color) (h : IsRgb c 0 0 0) (ha : c.malpha ≠ 0) : ¬ Trip w c .hsl .rgbDeep c := by
  intro ht
  exact ha (congrArg Color.malpha (ht.unique (hsl_black w c h)))

/-- Cases. -/
example (w : World) : Trip w (rgbOf 1 0.5 0.25 1 none) .hsl .rgbDeep (rgbOf 1 0.5 0.25 1 none) :=
  C41_hsl_partial w _ _ _ _ (isRgb_rgbOf _ _ (by norm_num)) (by norm_num [HueGap]) (by norm_num)
example (w : World) : ¬ Trip w (rgbOf 1 0 (1 / 120) 1 none) .hsl .rgbDeep (rgbOf 1 0 (1 / 120) 1 none) :=
  C41_gap_violated w _ _ _ _ (isRgb_rgbOf _ _ (by norm_num)) (by norm_num [HueGap])
example (w : World) : ¬ Trip w (rgbOf 0 0 0 1 none) .hsl .rgbDeep (rgbOf 0 0 0 1 none) :=
  C41_black_violated w _ (isRgb_rgbOf _ _ (by norm_num)) (by simp [rgbOf])

/-! ## C42 HCY -/

/-- **C42 (partial)** RGB_DEEP → HCY → RGB_DEEP is the identity for every colour whose hue is not strictly between 359 and 360 degrees.
The full statement is false, see `C42_gap_violated`. -/
theorem C42_hcy_partial (w : World) (c : Color) (r g b : ℝ) (h : IsRgb c r g b) (hgap : ¬ HueGap r g b) : Trip w c .hcy .rgbDeep c := by
  obtain ⟨d, h1, h2⟩ := hcy_trip h hgap
  exact trip_of (s := .rgbDeep) (by decide) (by decide) (by decide) h.col h1 h2

/-- **C42 violated** No colour whose hue is strictly between 359 and 360 degrees survives. -/
theorem C42_gap_violated (w : World) (c : Color) (r g b : ℝ) (h : IsRgb c r g b) (hgap : HueGap r g b) : ¬ Trip w c .hcy .rgbDeep c := by
  obtain ⟨d, x, y, z, h1, h2, hx⟩ := hcy_gap h hgap
  intro ht
  have e := congrArg Color.comps (ht.unique (trip_of (s := .rgbDeep) (by decide) (by decide) (by decide) h.col h1 h2))
  rw [h.comps] at e
  simp only [Color.mkRgbDeep, one_def, zero_def, Color.clamp_fin, List.cons.injEq, fin.injEq] at e
  have hr : r ≤ max x 0 := e.1.le.trans (max_le_max_right _ (min_le_left _ _))
  rcases le_max_iff.1 hr with h' | h'
  · linarith
  · linarith [hgap.1, hgap.2, h.g0]

example (w : World) : Trip w (rgbOf 1 0.5 0.25 1 none) .hcy .rgbDeep (rgbOf 1 0.5 0.25 1 none) :=
  C42_hcy_partial w _ _ _ _ (isRgb_rgbOf _ _ (by norm_num)) (by norm_num [HueGap])
example (w : World) : ¬ Trip w (rgbOf 1 0 (1 / 120) 1 none) .hcy .rgbDeep (rgbOf 1 0 (1 / 120) 1 none) :=
  C42_gap_violated w _ _ _ _ (isRgb_rgbOf _ _ (by norm_num)) (by norm_num [HueGap])

/-! ## C43 HSI -/

/-- **C43 (partial)** RGB_DEEP → HSI → RGB_DEEP is the identity for greys and for colours with a channel 0 whose hue is not strictly between 359 and 360
degrees.  The full statement is false, see `C43_violated`: these are the only colours that survive. -/
theorem C43_hsi_partial (w : World) (c : Color) (r g b : ℝ) (h : IsRgb c r g b)
    (hk : (g = r ∧ b = r) ∨ (min (min r g) b = 0 ∧ ¬ HueGap r g b)) : Trip w c .hsi .rgbDeep c := by
  by_cases hgr : g = r ∧ b = r
  · obtain ⟨rfl, rfl⟩ := hgr
    obtain ⟨d, h1, h2⟩ := hsi_grey h
    exact trip_of (s := .rgbDeep) (by decide) (by decide) (by decide) h.col h1 h2
  · obtain ⟨hm, hgap⟩ := hk.resolve_left hgr
    obtain ⟨d, x, y, z, h1, h2, h3, -⟩ := hsi_trip h hgr
    obtain ⟨rfl, rfl, rfl⟩ := h3 hgap
    rw [hm, sub_zero, sub_zero, sub_zero, obj_rgb h, ← h.comps] at h2
    exact trip_of (s := .rgbDeep) (by decide) (by decide) (by decide) h.col h1 h2

/-- **C43 violated** Every other colour is changed. -/
theorem C43_violated (w : World) (c : Color) (r g b : ℝ) (h : IsRgb c r g b) (hgr : ¬ (g = r ∧ b = r))
    (hk : min (min r g) b ≠ 0 ∨ HueGap r g b) : ¬ Trip w c .hsi .rgbDeep c := by
  obtain ⟨d, x, y, z, h1, h2, h3, h4⟩ := hsi_trip h hgr
  intro ht
  have e := congrArg Color.comps (ht.unique (trip_of (s := .rgbDeep) (by decide) (by decide) (by decide) h.col h1 h2))
  rw [h.comps] at e
  simp only [obj, List.cons.injEq, fin.injEq] at e
  by_cases hg : HueGap r g b
  · linarith [h4 hg]
  · have := h3 hg
    have hm := hk.resolve_right hg
    apply hm
    linarith

/-- **C43 (partial)** What comes back for the colours outside the gap: all channels lose the smallest one. -/
theorem C43_offset_partial (w : World) (c : Color) (r g b : ℝ) (h : IsRgb c r g b) (hgr : ¬ (g = r ∧ b = r)) (hgap : ¬ HueGap r g b) :
    Trip w c .hsi .rgbDeep { c with comps := [fin (r - min (min r g) b), fin (g - min (min r g) b), fin (b - min (min r g) b)] } := by
  obtain ⟨d, x, y, z, h1, h2, h3, -⟩ := hsi_trip h hgr
  obtain ⟨rfl, rfl, rfl⟩ := h3 hgap
  rw [obj_rgb h] at h2
  exact trip_of (s := .rgbDeep) (by decide) (by decide) (by decide) h.col h1 h2

example (w : World) : Trip w (rgbOf 1 0.5 0 1 none) .hsi .rgbDeep (rgbOf 1 0.5 0 1 none) :=
  C43_hsi_partial w _ _ _ _ (isRgb_rgbOf _ _ (by norm_num)) (by norm_num [HueGap])
example (w : World) : ¬ Trip w (rgbOf 1 0.5 0.5 1 none) .hsi .rgbDeep (rgbOf 1 0.5 0.5 1 none) :=
  C43_violated w _ _ _ _ (isRgb_rgbOf _ _ (by norm_num)) (by norm_num) (by norm_num)

/-! ## C44 -/

omit [ExactModel] in
/-- Black, white and greys in RGB. -/
theorem grey_to_hue (v : ℝ) (v0 : 0 ≤ v) (v1 : v ≤ 1) (al : Fl) (sp : Option Nat) :
    Leaf.rgb_deep_to_hsl (obj .rgbDeep v v v al sp) = ok (obj .hsl 0 0 v al sp) ∧ Leaf.rgb_deep_to_hsv (obj .rgbDeep v v v al sp) = ok (obj .hsv 0 0 v al sp) := by
  constructor <;>
  · simp only [Leaf.rgb_deep_to_hsl, Leaf.rgb_deep_to_hsv, obj_0, obj_1, obj_2, obj_space, obj_malpha, obj_alpha _ _ _ _ _ _ (rfl : Color.scalesAlpha .rgbDeep = false), ok_bind, fmin_fin, fmax_fin,
      feq_fin, Color.construct_hsl, Color.construct_hsv, max_self, min_self, if_true]
    rw [mkHue_grey _ _ _ ⟨rfl, rfl⟩ v0 v1]

/-- A hue-based colour with hue in [0,359] and saturation and third component in [0,1]. -/
structure ConvSpec.IsHue (c : Color) (t : ColorType) (h s v : ℝ) : Prop where
  col : IsColor t c
  comps : c.comps = [fin h, fin s, fin v]
  h0 : 0 ≤ h
  h1 : h ≤ 359
  s0 : 0 ≤ s
  s1 : s ≤ 1
  v0 : 0 ≤ v
  v1 : v ≤ 1

omit [FloatModel] [ExactModel] in
theorem ConvSpec.IsHue.eq {c : Color} {t : ColorType} {h s v : ℝ} (hc : IsHue c t h s v) : c = obj t h s v c.malpha c.space := by
  obtain ⟨⟨h1, h2, -, h3, h4⟩, h5, -⟩ := hc
  cases c
  simp only at *
  simp [h1, h2, h3, h4, h5, obj]

omit [ExactModel] in
theorem mkHue_any (t : ColorType) (ht : Color.maxOf t = 1 ∧ Color.minOf t = 0) {h v : ℝ} (h0 : 0 ≤ h) (h1 : h ≤ 359) (v0 : 0 ≤ v) (v1 : v ≤ 1) (s : Fl) (al : Fl) (sp : Option Nat) :
    Color.mkHue t (fin h) s (fin v) al sp = ⟨t, t, [fin h, Color.clamp s 1 0, fin v], al, 1, 0, sp⟩ := by
  have hc : Color.clamp (fin h) 359 0 = fin h := by simp only [lit_def, zero_def, Color.clamp_fin, min_eq_left h1, max_eq_left h0]
  simp only [Color.mkHue, Color.hueReduce_id (h := h) h0 (by linarith), hc, clamp01 v0 v1]

/-- Direct conversion HSV → HSL. -/
theorem hsv_hsl_direct {h s v : ℝ} (h0 : 0 ≤ h) (h1 : h ≤ 359) (s0 : 0 ≤ s) (s1 : s ≤ 1) (v0 : 0 ≤ v) (v1 : v ≤ 1) (al : Fl) (sp : Option Nat) :
    Leaf.hsv_to_hsl (obj .hsv h s v al sp) =
      ok ⟨.hsl, .hsl, [fin h, Color.clamp (fin (s * v) / fin (if (2 - s) * v ≤ 1 then (2 - s) * v else 2 - (2 - s) * v)) 1 0, fin ((2 - s) * v / 2)], al, 1, 0, sp⟩ := by
  have a : 0 ≤ (2 - s) * v := mul_nonneg (by linarith) v0
  have b : (2 - s) * v ≤ 2 := by nlinarith
  simp only [Leaf.hsv_to_hsl, obj_0, obj_1, obj_2, obj_space, obj_alpha _ _ _ _ _ _ (rfl : Color.scalesAlpha .hsv = false), ok_bind, Color.construct_hsl,
    lit_def, one_def, sub_exact, mul_exact, fin_le]
  rw [div_exact _ 2 (by norm_num), ← apply_ite fin, mkHue_any .hsl ⟨rfl, rfl⟩ h0 h1 (by linarith) (by linarith)]
  simp only [one_def]

/-- HSV → RGB. -/
theorem hsv_rgb {k : Sector} {u s v : ℝ} (u0 : 0 ≤ u) (u1 : u ≤ 1) (s0 : 0 ≤ s) (s1 : s ≤ 1) (v0 : 0 ≤ v) (v1 : v ≤ 1) (al : Fl) (sp : Option Nat) :
    Leaf.hsv_to_rgb_deep (obj .hsv (k.hue u) s v al sp) =
      ok (obj .rgbDeep (v * (1 - s) + v * s * k.red u) (v * (1 - s) + v * s * k.green u) (v * (1 - s) + v * s * k.blue u) al sp) := by
  have key : ∀ x, v - v * s * (1 - x) = v * (1 - s) + v * s * x := fun x => by ring
  have rng : ∀ x : ℝ, 0 ≤ x → x ≤ 1 → 0 ≤ v * (1 - s) + v * s * x ∧ v * (1 - s) + v * s * x ≤ 1 := by
    intro x x0 x1
    have hs : 0 ≤ 1 - s := by linarith
    have : v * s * x ≤ v * s * 1 := mul_le_mul_of_nonneg_left x1 (by positivity)
    refine ⟨by positivity, by linarith⟩
  have pat : (0 ≤ k.red u ∧ k.red u ≤ 1) ∧ (0 ≤ k.green u ∧ k.green u ≤ 1) ∧ (0 ≤ k.blue u ∧ k.blue u ≤ 1) := by
    cases k <;> simp only [Sector.red, Sector.green, Sector.blue] <;> norm_num <;> exact ⟨u0, u1⟩
  rw [from_hsv k u0 u1, key, key, key]
  rw [mkRgb_obj _ _ (rng _ pat.1.1 pat.1.2).1 (rng _ pat.1.1 pat.1.2).2 (rng _ pat.2.1.1 pat.2.1.2).1 (rng _ pat.2.1.1 pat.2.1.2).2 (rng _ pat.2.2.1 pat.2.2.2).1 (rng _ pat.2.2.1 pat.2.2.2).2]

/-- The HSL colour that HSV → RGB → HSL gives. -/
theorem hsv_route {h s v : ℝ} (h0 : 0 ≤ h) (h1 : h ≤ 359) (s0 : 0 ≤ s) (s1 : s ≤ 1) (v0 : 0 ≤ v) (v1 : v ≤ 1) (al : Fl) (sp : Option Nat) :
    ∃ d, Leaf.hsv_to_rgb_deep (obj .hsv h s v al sp) = ok d ∧
      ((0 < s ∧ 0 < v) → Leaf.rgb_deep_to_hsl d = ok (obj .hsl h (v * s / (1 - |2 * (v * (1 - s) + v * s / 2) - 1|)) (v * (1 - s) + v * s / 2) al sp)) ∧
      ((s = 0 ∨ v = 0) → Leaf.rgb_deep_to_hsl d = ok (obj .hsl 0 0 v al sp)) := by
  obtain ⟨k, u, u0, u1, -, rfl⟩ := exists_sector h h0 (by linarith)
  refine ⟨_, hsv_rgb u0 u1 s0 s1 v0 v1 al sp, ?_, ?_⟩
  · rintro ⟨s2, v2⟩
    have hs : 0 ≤ 1 - s := by linarith
    exact to_hsl k al sp u0 u1 (by positivity) h1 (by positivity) (by linarith)
  · intro hz
    have e1 : v * s = 0 := by rcases hz with rfl | rfl <;> simp
    have e2 : v * (1 - s) = v := by rcases hz with rfl | rfl <;> simp
    simp only [e1, e2, zero_mul, add_zero]
    exact (grey_to_hue v v0 v1 al sp).1

/-- **C44 (partial)** HSV → HSL directly agrees with the route through RGB for every colour with positive saturation and value, and for the greys with
hue 0 other than black and white.  The full statement is false for all others, see `C44_hsv_hsl_violated`. -/
theorem C44_hsv_hsl_partial (w : World) (c : Color) (h s v : ℝ) (hc : IsHue c .hsv h s v)
    (hk : (0 < s ∧ 0 < v) ∨ (h = 0 ∧ s = 0 ∧ 0 < v ∧ v < 1)) : Agree w c .rgbDeep .hsl := by
  obtain ⟨d, h1, h2, h3⟩ := hsv_route hc.h0 hc.h1 hc.s0 hc.s1 hc.v0 hc.v1 c.malpha c.space
  have hdir := hsv_hsl_direct hc.h0 hc.h1 hc.s0 hc.s1 hc.v0 hc.v1 c.malpha c.space
  rw [← hc.eq] at h1 hdir
  refine agree_of (s := .hsv) (by decide) (by decide) (by decide) (by decide) (by decide) (by decide) hc.col hdir h1 ?_
  have s0 := hc.s0; have s1 := hc.s1; have v0 := hc.v0; have v1 := hc.v1
  rcases hk with ⟨s2, v2⟩ | ⟨rfl, rfl, v2, v3⟩
  · change Leaf.rgb_deep_to_hsl d = _
    rw [h2 ⟨s2, v2⟩]
    have hsv : 0 < v * s := by positivity
    have e : 1 - |2 * (v * (1 - s) + v * s / 2) - 1| = if (2 - s) * v ≤ 1 then (2 - s) * v else 2 - (2 - s) * v := by
      split
      · rw [abs_of_nonpos (by linarith)]; ring
      · rw [abs_of_nonneg (by linarith)]; ring
    have hd : v * s ≤ 1 - |2 * (v * (1 - s) + v * s / 2) - 1| := by
      rw [e]; split
      · nlinarith
      · linarith
    rw [← e, div_exact _ _ (by linarith), mul_comm s v, clamp01 (div_nonneg hsv.le (by linarith)) (by rw [div_le_one (by linarith)]; exact hd),
      show v * (1 - s) + v * s / 2 = (2 - s) * v / 2 by ring]
    rfl
  · change Leaf.rgb_deep_to_hsl d = _
    rw [h3 (Or.inl rfl), zero_mul, div_exact _ _ (by split <;> linarith), zero_div, clamp01 le_rfl (by norm_num), show (2 - 0) * v / 2 = v by ring]
    rfl

/-- **C44 violated** For all other HSV colours – greys with a hue, black and white – the two results differ. -/
theorem C44_hsv_hsl_violated (w : World) (c : Color) (h s v : ℝ) (hc : IsHue c .hsv h s v)
    (hk : ¬ ((0 < s ∧ 0 < v) ∨ (h = 0 ∧ s = 0 ∧ 0 < v ∧ v < 1))) : ¬ Agree w c .rgbDeep .hsl := by
  obtain ⟨d, h1, h2, h3⟩ := hsv_route hc.h0 hc.h1 hc.s0 hc.s1 hc.v0 hc.v1 c.malpha c.space
  have hdir := hsv_hsl_direct hc.h0 hc.h1 hc.s0 hc.s1 hc.v0 hc.v1 c.malpha c.space
  rw [← hc.eq] at h1 hdir
  have s0 := hc.s0; have s1 := hc.s1; have v0 := hc.v0; have v1 := hc.v1
  have hz : s = 0 ∨ v = 0 := by
    by_contra hh
    push Not at hh
    exact hk (Or.inl ⟨lt_of_le_of_ne s0 (Ne.symm hh.1), lt_of_le_of_ne v0 (Ne.symm hh.2)⟩)
  refine not_agree_of (s := .hsv) (by decide) (by decide) (by decide) (by decide) (by decide) (by decide) hc.col hdir h1 (h3 hz) ?_
  intro he
  have he := congrArg Color.comps he
  simp only [obj, List.cons.injEq, fin.injEq, and_true] at he
  obtain ⟨e1, e2, -⟩ := he
  have hsv : s * v = 0 := by rcases hz with rfl | rfl <;> simp
  have hn : Color.clamp nan 1 0 = fin 1 := by simpa using Color.clamp_nan 1 0 zero_le_one
  have hden : (if (2 - s) * v ≤ 1 then (2 - s) * v else 2 - (2 - s) * v) = 0 := by
    rcases eq_or_ne v 0 with rfl | hv
    · simp
    · have hs0 : s = 0 := hz.resolve_right hv
      have : v = 1 := by
        by_contra hv1
        exact hk (Or.inr ⟨e1, hs0, lt_of_le_of_ne v0 (Ne.symm hv), lt_of_le_of_ne v1 hv1⟩)
      subst hs0 this
      norm_num
  rw [hsv, hden, fin_div_zero, show infOf 0 = nan by simp [infOf], hn] at e2
  simp at e2

/-- Direct conversion HSL → HSV. -/
theorem hsl_hsv_direct {h s l : ℝ} (h0 : 0 ≤ h) (h1 : h ≤ 359) (l0 : 0 ≤ l) (l1 : l ≤ 1) (al : Fl) (sp : Option Nat) :
    ∃ m : ℝ, (m = if s ≠ 0 ∧ l * 2 ≤ 1 then l * 2 else 2 - l * 2) ∧ Leaf.hsl_to_hsv (obj .hsl h s l al sp) =
      ok ⟨.hsv, .hsv, [fin h, Color.clamp (fin (2 * m) / fin (l * 2 + m)) 1 0, fin ((l * 2 + m) / 2)], al, 1, 0, sp⟩ := by
  refine ⟨_, rfl, ?_⟩
  simp only [Leaf.hsl_to_hsv, obj_0, obj_1, obj_2, obj_space, obj_alpha _ _ _ _ _ _ (rfl : Color.scalesAlpha .hsl = false), ok_bind, Color.construct_hsv,
    lit_def, one_def, zero_def, sub_exact, mul_exact, fin_le]
  simp only [← apply_ite fin, mul_exact, feq_fin]
  have e : (if ¬ s * (if l * 2 ≤ 1 then 1 else 0) = 0 then l * 2 else 2 - l * 2) = if s ≠ 0 ∧ l * 2 ≤ 1 then l * 2 else 2 - l * 2 := by
    by_cases hl : l * 2 ≤ 1 <;> by_cases hs : s = 0 <;> simp [hl, hs]
  rw [e]
  set m := if s ≠ 0 ∧ l * 2 ≤ 1 then l * 2 else 2 - l * 2 with hm
  have m0 : 0 ≤ l * 2 + m := by rw [hm]; split <;> linarith
  have m1 : l * 2 + m ≤ 2 := by
    rw [hm]; split
    · rename_i hh; linarith [hh.2]
    · linarith
  rw [add_exact, div_exact _ 2 (by norm_num), mkHue_any .hsv ⟨rfl, rfl⟩ h0 h1 (by linarith) (by linarith)]
  simp only [one_def, zero_def]

/-- HSL → RGB for colours that are not black. -/
theorem hsl_rgb {k : Sector} {u s l : ℝ} (u0 : 0 ≤ u) (u1 : u ≤ 1) (s0 : 0 ≤ s) (s1 : s ≤ 1) (l0 : 0 < l) (l1 : l ≤ 1) (al : Fl) (sp : Option Nat) :
    Leaf.hsl_to_rgb_deep (obj .hsl (k.hue u) s l al sp) =
      ok (obj .rgbDeep (l - s * min l (1 - l) + 2 * (s * min l (1 - l)) * k.red u) (l - s * min l (1 - l) + 2 * (s * min l (1 - l)) * k.green u)
        (l - s * min l (1 - l) + 2 * (s * min l (1 - l)) * k.blue u) al sp) := by
  set a := s * min l (1 - l) with ha
  have m0 : 0 ≤ min l (1 - l) := le_min l0.le (by linarith)
  have a0 : 0 ≤ a := by rw [ha]; positivity
  have a1 : a ≤ l := by
    have : a ≤ 1 * min l (1 - l) := mul_le_mul_of_nonneg_right s1 m0
    linarith [min_le_left l (1 - l)]
  have a2 : a ≤ 1 - l := by
    have : a ≤ 1 * min l (1 - l) := mul_le_mul_of_nonneg_right s1 m0
    linarith [min_le_right l (1 - l)]
  have key : ∀ x, l - a * (1 - 2 * x) = l - a + 2 * a * x := fun x => by ring
  have rng : ∀ x : ℝ, 0 ≤ x → x ≤ 1 → 0 ≤ l - a + 2 * a * x ∧ l - a + 2 * a * x ≤ 1 := by
    intro x x0 x1
    have : 0 ≤ 2 * a * x := by positivity
    have : 2 * a * x ≤ 2 * a * 1 := mul_le_mul_of_nonneg_left x1 (by positivity)
    constructor <;> linarith
  have pat : (0 ≤ k.red u ∧ k.red u ≤ 1) ∧ (0 ≤ k.green u ∧ k.green u ≤ 1) ∧ (0 ≤ k.blue u ∧ k.blue u ≤ 1) := by
    cases k <;> simp only [Sector.red, Sector.green, Sector.blue] <;> norm_num <;> exact ⟨u0, u1⟩
  rw [from_hsl k u0 u1 s l l0.ne', key, key, key]
  rw [mkRgb_obj _ _ (rng _ pat.1.1 pat.1.2).1 (rng _ pat.1.1 pat.1.2).2 (rng _ pat.2.1.1 pat.2.1.2).1 (rng _ pat.2.1.1 pat.2.1.2).2 (rng _ pat.2.2.1 pat.2.2.2).1 (rng _ pat.2.2.1 pat.2.2.2).2]

/-- The HSV colour that HSL → RGB → HSV gives. -/
theorem hsl_route {h s l : ℝ} (h0 : 0 ≤ h) (h1 : h ≤ 359) (s0 : 0 ≤ s) (s1 : s ≤ 1) (l0 : 0 < l) (l1 : l ≤ 1) (al : Fl) (sp : Option Nat) :
    ∃ d, Leaf.hsl_to_rgb_deep (obj .hsl h s l al sp) = ok d ∧
      ((0 < s ∧ l < 1) → Leaf.rgb_deep_to_hsv d = ok (obj .hsv h (2 * (s * min l (1 - l)) / (l - s * min l (1 - l) + 2 * (s * min l (1 - l))))
        (l - s * min l (1 - l) + 2 * (s * min l (1 - l))) al sp)) ∧
      ((s = 0 ∨ l = 1) → Leaf.rgb_deep_to_hsv d = ok (obj .hsv 0 0 l al sp)) := by
  obtain ⟨k, u, u0, u1, -, rfl⟩ := exists_sector h h0 (by linarith)
  refine ⟨_, hsl_rgb u0 u1 s0 s1 l0 l1 al sp, ?_, ?_⟩
  · rintro ⟨s2, l2⟩
    have m0 : 0 < min l (1 - l) := lt_min l0 (by linarith)
    have hle : s * min l (1 - l) ≤ 1 * min l (1 - l) := mul_le_mul_of_nonneg_right s1 m0.le
    have := min_le_left l (1 - l)
    have := min_le_right l (1 - l)
    exact to_hsv k al sp u0 u1 (by positivity) h1 (by linarith) (by linarith)
  · intro hz
    have e1 : s * min l (1 - l) = 0 := by
      rcases hz with rfl | rfl
      · simp
      · simp
    simp only [e1, mul_zero, zero_mul, add_zero, sub_zero]
    exact (grey_to_hue l l0.le l1 al sp).2

/-- **C44 (partial)** HSL → HSV directly agrees with the route through RGB for fully saturated colours other than black and white, and for white with hue 0.
The full statement is false for all others, see `C44_hsl_hsv_violated`. -/
theorem C44_hsl_hsv_partial (w : World) (c : Color) (h s l : ℝ) (hc : IsHue c .hsl h s l)
    (hk : (s = 1 ∧ 0 < l ∧ l < 1) ∨ (h = 0 ∧ l = 1)) : Agree w c .rgbDeep .hsv := by
  have l0 : 0 < l := by rcases hk with hk | hk <;> linarith [hk.2]
  obtain ⟨d, h1, h2, h3⟩ := hsl_route hc.h0 hc.h1 hc.s0 hc.s1 l0 hc.v1 c.malpha c.space
  obtain ⟨m, hm, hdir⟩ := hsl_hsv_direct (s := s) hc.h0 hc.h1 hc.v0 hc.v1 c.malpha c.space
  rw [← hc.eq] at h1 hdir
  refine agree_of (s := .hsl) (by decide) (by decide) (by decide) (by decide) (by decide) (by decide) hc.col hdir h1 ?_
  have s0 := hc.s0; have s1 := hc.s1; have v0 := hc.v0; have v1 := hc.v1
  change Leaf.rgb_deep_to_hsv d = _
  rcases hk with ⟨rfl, -, l1⟩ | ⟨rfl, rfl⟩
  · rw [h2 ⟨by norm_num, l1⟩]
    have hmm : m = 2 * min l (1 - l) := by
      rw [hm]
      by_cases hl : l * 2 ≤ 1
      · rw [if_pos ⟨one_ne_zero, hl⟩, min_eq_left (by linarith)]; ring
      · rw [if_neg (fun hh => hl hh.2), min_eq_right (by linarith)]; ring
    have m0 : 0 < min l (1 - l) := lt_min l0 (by linarith)
    have := min_le_left l (1 - l)
    rw [hmm, div_exact _ _ (by positivity), clamp01 (by positivity) (by rw [div_le_one (by positivity)]; linarith),
      show 2 * (1 * min l (1 - l)) / (l - 1 * min l (1 - l) + 2 * (1 * min l (1 - l))) = 2 * (2 * min l (1 - l)) / (l * 2 + 2 * min l (1 - l)) by
        rw [div_eq_div_iff (by linarith) (by positivity)]; ring,
      show l - 1 * min l (1 - l) + 2 * (1 * min l (1 - l)) = (l * 2 + 2 * min l (1 - l)) / 2 by ring]
    rfl
  · rw [h3 (Or.inr rfl)]
    have hmm : m = 0 := by rw [hm, if_neg (by norm_num)]; norm_num
    rw [hmm, div_exact _ _ (by norm_num), mul_zero, zero_div, clamp01 le_rfl (by norm_num), show ((1 : ℝ) * 2 + 0) / 2 = 1 by norm_num]
    rfl

/-- **C44 violated** For all other HSL colours the two results differ. -/
theorem C44_hsl_hsv_violated (w : World) (c : Color) (h s l : ℝ) (hc : IsHue c .hsl h s l)
    (hk : ¬ ((s = 1 ∧ 0 < l ∧ l < 1) ∨ (h = 0 ∧ l = 1))) : ¬ Agree w c .rgbDeep .hsv := by
  have s0 := hc.s0; have s1 := hc.s1; have v0 := hc.v0; have v1 := hc.v1
  obtain ⟨m, hm, hdir⟩ := hsl_hsv_direct (s := s) hc.h0 hc.h1 hc.v0 hc.v1 c.malpha c.space
  rw [← hc.eq] at hdir
  rcases v0.eq_or_lt with rfl | l0
  · have hrgb : Leaf.hsl_to_rgb_deep c = ok (obj .rgbDeep 0 0 0 0 c.space) := by
      rw [hc.eq]
      simp only [Leaf.hsl_to_rgb_deep, obj_0, obj_1, obj_2, obj_space, ok_bind, zero_def, feq_fin, if_true, Color.constructGrey, Color.construct_rgbDeep]
      rw [mkRgb_obj _ _ le_rfl (by norm_num) le_rfl (by norm_num) le_rfl (by norm_num)]
    refine not_agree_of (s := .hsl) (by decide) (by decide) (by decide) (by decide) (by decide) (by decide) hc.col hdir hrgb (grey_to_hue 0 le_rfl zero_le_one _ _).2 ?_
    intro he
    have he := congrArg Color.comps he
    simp only [obj, List.cons.injEq, fin.injEq, and_true] at he
    obtain ⟨-, e2, -⟩ := he
    have hn : Color.clamp nan 1 0 = fin 1 := by simpa using Color.clamp_nan 1 0 zero_le_one
    have hcase : m = 0 ∨ m = 2 := by rw [hm]; split <;> norm_num
    rcases hcase with rfl | rfl
    · norm_num at e2
      rw [fin_div_zero, show infOf 0 = nan by simp [infOf]] at e2
      rw [hn] at e2
      simp at e2
    · rw [div_exact _ _ (by norm_num)] at e2
      simp only [one_def, zero_def, Color.clamp_fin, fin.injEq] at e2
      norm_num at e2
  · obtain ⟨d, h1, h2, h3⟩ := hsl_route hc.h0 hc.h1 hc.s0 hc.s1 l0 hc.v1 c.malpha c.space
    rw [← hc.eq] at h1
    rcases v1.eq_or_lt with rfl | l1
    · refine not_agree_of (s := .hsl) (by decide) (by decide) (by decide) (by decide) (by decide) (by decide) hc.col hdir h1 (h3 (Or.inr rfl)) ?_
      intro he
      have he := congrArg Color.comps he
      simp only [obj, List.cons.injEq, fin.injEq, and_true] at he
      exact hk (Or.inr ⟨he.1, rfl⟩)
    · have hs1 : s < 1 := lt_of_le_of_ne s1 (fun hh => hk (Or.inl ⟨hh, l0, l1⟩))
      have m0 : 0 < min l (1 - l) := lt_min l0 (by linarith)
      rcases s0.eq_or_lt with rfl | s2
      · refine not_agree_of (s := .hsl) (by decide) (by decide) (by decide) (by decide) (by decide) (by decide) hc.col hdir h1 (h3 (Or.inl rfl)) ?_
        intro he
        have he := congrArg Color.comps he
        simp only [obj, List.cons.injEq, fin.injEq, and_true] at he
        rw [hm, if_neg (by norm_num)] at he
        linarith [he.2.2]
      · refine not_agree_of (s := .hsl) (by decide) (by decide) (by decide) (by decide) (by decide) (by decide) hc.col hdir h1 (h2 ⟨s2, l1⟩) ?_
        intro he
        have he := congrArg Color.comps he
        simp only [obj, List.cons.injEq, fin.injEq, and_true] at he
        obtain ⟨-, -, e3⟩ := he
        have hmm : m = 2 * min l (1 - l) := by
          rw [hm]
          by_cases hl : l * 2 ≤ 1
          · rw [if_pos ⟨s2.ne', hl⟩, min_eq_left (by linarith)]; ring
          · rw [if_neg (fun hh => hl hh.2), min_eq_right (by linarith)]; ring
        rw [hmm] at e3
        have : s * min l (1 - l) < 1 * min l (1 - l) := mul_lt_mul_of_pos_right hs1 m0
        linarith

/-- Cases: a pure orange agrees, a muted one does not. -/
example (w : World) : Agree w (obj .hsv 30 0.5 0.5 1 none) .rgbDeep .hsl :=
  C44_hsv_hsl_partial w _ 30 0.5 0.5 ⟨⟨rfl, rfl, rfl, rfl, rfl⟩, rfl, by norm_num, by norm_num, by norm_num, by norm_num, by norm_num, by norm_num⟩ (by norm_num)
example (w : World) : ¬ Agree w (obj .hsv 30 0 0.5 1 none) .rgbDeep .hsl :=
  C44_hsv_hsl_violated w _ 30 0 0.5 ⟨⟨rfl, rfl, rfl, rfl, rfl⟩, rfl, by norm_num, by norm_num, by norm_num, by norm_num, by norm_num, by norm_num⟩ (by norm_num)
example (w : World) : Agree w (obj .hsl 30 1 0.25 1 none) .rgbDeep .hsv :=
  C44_hsl_hsv_partial w _ 30 1 0.25 ⟨⟨rfl, rfl, rfl, rfl, rfl⟩, rfl, by norm_num, by norm_num, by norm_num, by norm_num, by norm_num, by norm_num⟩ (by norm_num)
example (w : World) : ¬ Agree w (obj .hsl 0 0.5 0.25 1 none) .rgbDeep .hsv :=
  C44_hsl_hsv_violated w _ 0 0.5 0.25 ⟨⟨rfl, rfl, rfl, rfl, rfl⟩, rfl, by norm_num, by norm_num, by norm_num, by norm_num, by norm_num, by norm_num⟩ (by norm_num)

/-! ## C45 grey -/

/-- A grey colour object. -/
noncomputable def greyOf (t : ColorType) (v : ℝ) (al : Fl) (sp : Option Nat) : Color := ⟨t, t, [fin v], al, Color.maxOf t, Color.minOf t, sp⟩

omit [FloatModel] [ExactModel] in
theorem grey_eq {t : ColorType} {c : Color} {v : ℝ} (h : IsColor t c) (hv : c.comps = [fin v]) : c = greyOf t v c.malpha c.space := by
  obtain ⟨h1, h2, -, h3, h4⟩ := h
  cases c
  simp only at *
  simp [greyOf, h1, h2, h3, h4, hv]

omit [FloatModel] [ExactModel] in
@[simp] theorem greyOf_0 (t : ColorType) (v : ℝ) (al : Fl) (sp : Option Nat) : (greyOf t v al sp).getComponent 0 = ok (fin v) := rfl

omit [FloatModel] [ExactModel] in
theorem mean_between (r g b : ℝ) : min (min r g) b ≤ (r + g + b) / 3 ∧ (r + g + b) / 3 ≤ max (max r g) b := by
  have hr1 : min (min r g) b ≤ r := (min_le_left _ _).trans (min_le_left _ _)
  have hg1 : min (min r g) b ≤ g := (min_le_left _ _).trans (min_le_right _ _)
  have hb1 : min (min r g) b ≤ b := min_le_right _ _
  have hr2 : r ≤ max (max r g) b := (le_max_left _ _).trans (le_max_left _ _)
  have hg2 : g ≤ max (max r g) b := (le_max_right _ _).trans (le_max_left _ _)
  have hb2 : b ≤ max (max r g) b := le_max_right _ _
  constructor <;> linarith

omit [ExactModel] in
theorem clamp255 {x : ℝ} (h0 : 0 ≤ x) (h1 : x ≤ 255) : Color.clamp (fin x) 255 0 = fin x := by simp [Color.clamp_fin, h0, h1]

/-- **C45** The grey value of an RGB_DEEP colour lies between its smallest and its largest channel, and its opacity is kept. -/
theorem C45_between_deep (h : Heap) (i : Nat) (c : Color) (hi : h.colors[i]? = some c) (r g b : ℝ) (hc : IsRgb c r g b) :
    ∃ q h' d v, Conv.dispatcher .greyDeep (some i) h = (ok (some q), h') ∧ h'.colors[q]? = some d ∧ d.comps = [fin v] ∧ d.alpha = c.alpha ∧
      min (min r g) b ≤ v ∧ v ≤ max (max r g) b := by
  obtain ⟨m1, m2⟩ := mean_between r g b
  have r0 := hc.r0; have r1 := hc.r1; have g0 := hc.g0; have g1 := hc.g1; have b0 := hc.b0; have b1 := hc.b1
  have hv : Val.conv .rgbDeep .greyDeep h.world c = ok (greyOf .greyDeep ((r + g + b) / 3) c.malpha c.space) := by
    change Leaf.rgb_deep_to_grey_deep c = _
    rw [rgb_eq hc]
    simp only [Leaf.rgb_deep_to_grey_deep, obj_0, obj_1, obj_2, obj_space, obj_malpha, obj_alpha _ _ _ _ _ _ (rfl : Color.scalesAlpha .rgbDeep = false), ok_bind,
      Color.construct_greyDeep, add_exact, lit_def]
    rw [div_exact _ _ (by norm_num), Color.mkGreyDeep, clamp01 (by linarith) (by linarith)]
    rfl
  obtain ⟨q, h', a1, a2, -, -⟩ := dispatcher_val (s := .rgbDeep) (by decide) (by decide) (by decide) hc.col hi hv
  refine ⟨q, h', _, _, a1, a2, rfl, ?_, m1, m2⟩
  rw [rgb_eq hc]; rfl

/-- **C45** The same for RGB_TRUE and GREY_TRUE. -/
theorem C45_between_true (h : Heap) (i : Nat) (c : Color) (hi : h.colors[i]? = some c) (r g b : ℝ) (hc : IsColor .rgbTrue c) (hv : c.comps = [fin r, fin g, fin b])
    (hr : 0 ≤ r ∧ r ≤ 255) (hg : 0 ≤ g ∧ g ≤ 255) (hb : 0 ≤ b ∧ b ≤ 255) (a : ℝ) (ha : c.malpha = fin a) (ha' : 0 ≤ a ∧ a ≤ 1) :
    ∃ q h' d v, Conv.dispatcher .greyTrue (some i) h = (ok (some q), h') ∧ h'.colors[q]? = some d ∧ d.comps = [fin v] ∧ d.alpha = c.alpha ∧
      min (min r g) b ≤ v ∧ v ≤ max (max r g) b := by
  obtain ⟨m1, m2⟩ := mean_between r g b
  have he : c = obj .rgbTrue r g b (fin a) c.space := by
    obtain ⟨h1, h2, -, h3, h4⟩ := hc
    cases c
    simp only at *
    simp [obj, h1, h2, h3, h4, hv, ha]
  have hval : Val.conv .rgbTrue .greyTrue h.world c = ok (greyOf .greyTrue ((r + g + b) / 3) (fin a) c.space) := by
    change Leaf.rgb_true_to_grey_true c = _
    have hal : c.alpha = fin (a * 255) := by rw [he]; simp [Color.alpha, obj, Color.scalesAlpha, mul_exact]
    simp only [Leaf.rgb_true_to_grey_true, hal]
    rw [he]
    simp only [obj_0, obj_1, obj_2, obj_space, ok_bind, Color.construct_greyTrue, add_exact, lit_def]
    rw [div_exact _ _ (by norm_num), Color.mkGreyTrue, clamp255 (by linarith) (by linarith)]
    simp only [lit_def]
    rw [div_exact _ _ (by norm_num), mul_div_cancel_right₀ _ (by norm_num), clamp01 ha'.1 ha'.2]
    simp [greyOf, Color.maxOf, Color.minOf]
  obtain ⟨q, h', a1, a2, -, -⟩ := dispatcher_val (s := .rgbTrue) (by decide) (by decide) (by decide) hc hi hval
  refine ⟨q, h', _, _, a1, a2, rfl, ?_, m1, m2⟩
  rw [he]; rfl

/-- **C45 (partial)** A GREY_DEEP colour converts to RGB_DEEP and back unchanged.  The statement for every pair of grey and RGB types is false, see
`C45_quantised_violated`. -/
theorem C45_deep_partial (w : World) (c : Color) (hc : IsColor .greyDeep c) (v : ℝ) (hv : c.comps = [fin v]) (h0 : 0 ≤ v) (h1 : v ≤ 1) : Trip w c .rgbDeep .greyDeep c := by
  have he := grey_eq hc hv
  refine trip_of (s := .greyDeep) (d := obj .rgbDeep v v v c.malpha c.space) (by decide) (by decide) (by decide) hc ?_ ?_
  · change Leaf.grey_deep_to_rgb_deep c = _
    rw [he]
    simp only [Leaf.grey_deep_to_rgb_deep, greyOf_0, ok_bind, Color.constructGrey, Color.construct_rgbDeep]
    exact congrArg ok (mkRgb_obj _ _ h0 h1 h0 h1 h0 h1)
  · change Leaf.rgb_deep_to_grey_deep _ = _
    simp only [Leaf.rgb_deep_to_grey_deep, obj_0, obj_1, obj_2, obj_space, obj_malpha, obj_alpha _ _ _ _ _ _ (rfl : Color.scalesAlpha .rgbDeep = false), ok_bind,
      Color.construct_greyDeep, add_exact, lit_def]
    rw [div_exact _ _ (by norm_num), show (v + v + v) / 3 = v by ring, Color.mkGreyDeep, clamp01 h0 h1]
    exact congrArg ok he.symm

/-- **C45 (partial)** A GREY_TRUE colour converts to RGB_TRUE and back unchanged. -/
theorem C45_true_partial (w : World) (c : Color) (hc : IsColor .greyTrue c) (v : ℝ) (hv : c.comps = [fin v]) (h0 : 0 ≤ v) (h1 : v ≤ 255)
    (a : ℝ) (ha : c.malpha = fin a) (a0 : 0 ≤ a) (a1 : a ≤ 1) : Trip w c .rgbTrue .greyTrue c := by
  have he := grey_eq hc hv
  rw [ha] at he
  have hal : ∀ t xs m n, Color.scalesAlpha t = true → (⟨t, t, xs, fin a, m, n, c.space⟩ : Color).alpha = fin (a * 255) := by
    intro t xs m n ht
    simp [Color.alpha, ht, mul_exact]
  have hd : Color.clamp (fin (a * 255) / 255) 1 0 = fin a := by
    simp only [lit_def]
    rw [div_exact _ _ (by norm_num), mul_div_cancel_right₀ _ (by norm_num), clamp01 a0 a1]
  refine trip_of (s := .greyTrue) (d := ⟨.rgbTrue, .rgbTrue, [fin v, fin v, fin v], fin a, 255, 0, c.space⟩) (by decide) (by decide) (by decide) hc ?_ ?_
  · change Leaf.grey_true_to_rgb_true c = _
    have hca : c.alpha = fin (a * 255) := by rw [he]; exact hal _ _ _ _ rfl
    have hs : c.getComponent 0 = ok (fin v) := by rw [he]; rfl
    simp only [Leaf.grey_true_to_rgb_true, hca, hs, ok_bind, Color.constructGrey, Color.construct_rgbTrue, Color.mkRgbTrue, hd, clamp255 h0 h1]
  · change Leaf.rgb_true_to_grey_true _ = _
    simp only [Leaf.rgb_true_to_grey_true, Conv.get3_0, Conv.get3_1, Conv.get3_2, ok_bind, hal _ _ _ _ (rfl : Color.scalesAlpha .rgbTrue = true),
      Color.construct_greyTrue, add_exact]
    rw [show fin (v + v + v) / 3 = fin v by simp only [lit_def]; rw [div_exact _ _ (by norm_num)]; congr 1; ring]
    simp only [Color.mkGreyTrue, hd, clamp255 h0 h1]
    exact congrArg ok he.symm

/-- **C45** Converting to grey again returns the very same object. -/
theorem C45_again (h : Heap) (i : Nat) (c : Color) (hi : h.colors[i]? = some c) (t : ColorType) (ht : t = .greyTrue ∨ t = .greyDeep) (hc : IsColor t c) :
    Conv.dispatcher t (some i) h = (ok (some i), h) := by
  refine Conv.dispatcher_same t ?_ h i c hi hc.cls hc.ctype
  rcases ht with rfl | rfl <;> decide

/-- **C45 violated** A GREY_DEEP colour does not survive a trip through RGB_TRUE: the value is rounded to 8 bits. -/
theorem C45_quantised_violated (w : World) : ¬ Trip w (greyOf .greyDeep 0.5 1 none) .rgbTrue .greyDeep (greyOf .greyDeep 0.5 1 none) := by
  have r1 : roundR (0.5 * 255) = 128 := by unfold roundR; rw [if_pos (by norm_num), Int.floor_eq_iff]; norm_num
  have r2 : roundR (1 * 255) = 255 := by unfold roundR; rw [if_pos (by norm_num), Int.floor_eq_iff]; norm_num
  have ht : Trip w (greyOf .greyDeep 0.5 1 none) .rgbTrue .greyDeep (greyOf .greyDeep (128 / 255) 1 none) := by
    refine trip_of (s := .greyDeep) (d := ⟨.rgbTrue, .rgbTrue, [fin 128, fin 128, fin 128], fin 1, 255, 0, none⟩) (by decide) (by decide) (by decide) ⟨rfl, rfl, rfl, rfl, rfl⟩ ?_ ?_
    · change Leaf.grey_deep_to_rgb_true _ = _
      have hal : (greyOf .greyDeep 0.5 1 none).alpha = fin 1 := by simp [greyOf, Color.alpha, Color.scalesAlpha]
      simp only [Leaf.grey_deep_to_rgb_true, hal, greyOf_0, ok_bind, Color.constructGrey, Color.construct_rgbTrue, Color.mkRgbTrue]
      simp only [lit_def, mul_exact, round_fin, r1, r2, one_def, zero_def]
      rw [div_exact _ _ (by norm_num)]
      simp only [Color.clamp_fin, Int.cast_ofNat]
      norm_num [greyOf]
    · change Val.rgb_true_to_grey_deep w _ = _
      have hal : ∀ t xs m n, Color.scalesAlpha t = true → (⟨t, t, xs, fin 1, m, n, none⟩ : Color).alpha = fin 255 := by
        intro t xs m n ht
        simp [Color.alpha, ht, mul_exact]
      have hd : Color.clamp (fin 255 / 255) 1 0 = fin 1 := by
        simp only [lit_def]; rw [div_exact _ _ (by norm_num), div_self (by norm_num), clamp01 (by norm_num) le_rfl]
      simp only [Val.rgb_true_to_grey_deep, Leaf.rgb_true_to_grey_true, Conv.get3_0, Conv.get3_1, Conv.get3_2, ok_bind,
        hal _ _ _ _ (rfl : Color.scalesAlpha .rgbTrue = true), Color.construct_greyTrue, add_exact]
      rw [show fin (128 + 128 + 128) / 3 = fin 128 by simp only [lit_def]; rw [div_exact _ _ (by norm_num)]; norm_num]
      simp only [Color.mkGreyTrue, hd, clamp255 (x := 128) (by norm_num) (by norm_num), Leaf.grey_copy_to_deep, Color.copy, Color.setAlpha,
        hal _ _ _ _ (rfl : Color.scalesAlpha .greyTrue = true), Color.scalesAlpha, if_true, Conv.get1_0, ok_bind, Color.construct_greyDeep]
      simp only [lit_def]
      rw [div_exact _ _ (by norm_num), div_exact _ _ (by norm_num), Color.mkGreyDeep, clamp01 (by norm_num) (by norm_num)]
      norm_num [greyOf, Color.maxOf, Color.minOf]
      exact one_def.symm
  intro hh
  have e := congrArg Color.comps (hh.unique ht)
  simp only [greyOf, List.cons.injEq, fin.injEq, and_true] at e
  norm_num at e

/-- Cases. -/
example (w : World) : Trip w (greyOf .greyDeep 0.3 (fin 0.5) none) .rgbDeep .greyDeep (greyOf .greyDeep 0.3 (fin 0.5) none) :=
  C45_deep_partial w _ ⟨rfl, rfl, rfl, rfl, rfl⟩ 0.3 rfl (by norm_num) (by norm_num)
example (w : World) : Trip w (greyOf .greyTrue 77 (fin 0.5) none) .rgbTrue .greyTrue (greyOf .greyTrue 77 (fin 0.5) none) :=
  C45_true_partial w _ ⟨rfl, rfl, rfl, rfl, rfl⟩ 77 rfl (by norm_num) (by norm_num) 0.5 rfl (by norm_num) (by norm_num)
example (w : World) : ∃ q h' d v, Conv.dispatcher .greyDeep (some 0) ⟨w, [rgbOf 1 0.5 0 1 none]⟩ = (ok (some q), h') ∧ h'.colors[q]? = some d ∧ d.comps = [fin v] ∧
    d.alpha = (rgbOf 1 0.5 0 1 none).alpha ∧ min (min 1 0.5) 0 ≤ v ∧ v ≤ max (max 1 0.5) (0 : ℝ) :=
  C45_between_deep ⟨w, _⟩ 0 _ rfl _ _ _ (isRgb_rgbOf _ _ (by norm_num))
example (w : World) : ∃ q h' d v, Conv.dispatcher .greyTrue (some 0) ⟨w, [obj .rgbTrue 255 128 0 (fin 0.5) none]⟩ = (ok (some q), h') ∧ h'.colors[q]? = some d ∧ d.comps = [fin v] ∧
    d.alpha = (obj .rgbTrue 255 128 0 (fin 0.5) none).alpha ∧ min (min 255 128) 0 ≤ v ∧ v ≤ max (max 255 128) (0 : ℝ) :=
  C45_between_true ⟨w, _⟩ 0 _ rfl _ _ _ ⟨rfl, rfl, rfl, rfl, rfl⟩ rfl (by norm_num) (by norm_num) (by norm_num) 0.5 rfl (by norm_num)
example (w : World) : Conv.dispatcher .greyDeep (some 0) ⟨w, [greyOf .greyDeep 0.3 1 none]⟩ = (ok (some 0), ⟨w, [greyOf .greyDeep 0.3 1 none]⟩) :=
  C45_again _ 0 _ rfl _ (Or.inr rfl) ⟨rfl, rfl, rfl, rfl, rfl⟩

end

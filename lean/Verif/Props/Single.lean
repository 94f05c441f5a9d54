import Verif.HueNear
import Verif.Binary32
import Verif.Props.RoundTrips

/-!
# Round trips in single precision (C125, C126, C127)

The theorems hold for every arithmetic with small rounding errors and exact small integers; `Binary32.binary32` is one.
-/

open Outcome Fl Prog ObjectSpec ConvSpec Hue

section
variable [FloatModel] [IntExact] [SmallError]

omit [SmallError] in
theorem rnd_1 : rnd (1 : ℝ) = fin 1 := by simpa using IntExact.rnd_int 1 (by norm_num)

omit [SmallError] in
theorem unit_sub {x : ℝ} (h0 : 0 ≤ x) (h1 : x ≤ 1) : ∃ y, (1 : Fl) - fin x = fin y ∧ 0 ≤ y ∧ y ≤ 1 := by
  have a : rnd (0 : ℝ) ≤ rnd (1 - x) := FloatModel.rnd_mono _ _ (by linarith)
  have b : rnd (1 - x) ≤ rnd (1 : ℝ) := FloatModel.rnd_mono _ _ (by linarith)
  rw [FloatModel.rnd_zero] at a; rw [rnd_1] at b
  obtain ⟨y, h, hy⟩ := inRange_iff.mpr ⟨a, b⟩
  exact ⟨y, by rw [one_def, fin_sub, h], hy.1, hy.2⟩

omit [IntExact] in
theorem unit_sub_near {x y : ℝ} (h0 : 0 ≤ x) (h1 : x ≤ 1) (h : (1 : Fl) - fin x = fin y) : |y - (1 - x)| ≤ 2 / 1000000 := by
  rw [one_def, fin_sub] at h
  obtain ⟨z, hz, e⟩ := near_rnd (r := 1 - x) (by rw [abs_le]; constructor <;> linarith)
  rw [h, fin_inj] at hz
  subst hz
  rw [abs_of_nonneg (by linarith : (0 : ℝ) ≤ 1 - x)] at e
  linarith

/-- One channel through CMYK and back; `m` is the largest channel. -/
theorem cmyk_channel {x m : ℝ} (h0 : 0 ≤ x) (hx : x ≤ m) (h1 : m ≤ 1) :
    Near ((1 - Color.clamp ((1 - fin x - (1 - fin m)) / (1 - (1 - fin m))) 1 0) * (1 - Color.clamp (1 - fin m) 1 0)) x (1 / 50000) := by
  obtain ⟨k, hk, k0, k1⟩ := unit_sub (h0.trans hx) h1
  obtain ⟨a, ha, a0, a1⟩ := unit_sub h0 (hx.trans h1)
  obtain ⟨d, hd, d0, d1⟩ := unit_sub k0 k1
  have ek := unit_sub_near (h0.trans hx) h1 hk
  have ea := unit_sub_near h0 (hx.trans h1) ha
  have ed := unit_sub_near k0 k1 hd
  have ck : Color.clamp (fin k) 1 0 = fin k := by simp [Color.clamp_fin, k0, k1]
  rw [hk, ha, hd, ck, hd]
  -- the numerator
  have hak : k ≤ a := by
    have : rnd (1 - m) ≤ rnd (1 - x) := FloatModel.rnd_mono _ _ (by linarith)
    rw [one_def, fin_sub] at hk ha
    rw [hk, ha] at this; simpa using this
  have hn : ∃ n, fin a - fin k = fin n ∧ 0 ≤ n ∧ n ≤ d := by
    have u : rnd (0 : ℝ) ≤ rnd (a - k) := FloatModel.rnd_mono _ _ (by linarith)
    have v : rnd (a - k) ≤ rnd (1 - k) := FloatModel.rnd_mono _ _ (by linarith)
    rw [one_def, fin_sub] at hd
    rw [FloatModel.rnd_zero] at u; rw [hd] at v
    obtain ⟨y, h, hy⟩ := inRange_iff.mpr ⟨u, v⟩
    exact ⟨y, by rw [fin_sub, h], hy.1, hy.2⟩
  obtain ⟨n, hn, n0, n1⟩ := hn
  have en : |n - (a - k)| ≤ 2 / 1000000 := by
    obtain ⟨z, hz, e⟩ := near_rnd (r := a - k) (by rw [abs_le]; constructor <;> linarith)
    rw [← fin_sub, hn, fin_inj] at hz
    subst hz
    rw [abs_of_nonneg (by linarith : (0 : ℝ) ≤ a - k)] at e
    linarith
  rw [hn]
  rw [abs_le] at ek ea ed en
  rcases d0.eq_or_lt with hz | hz
  · -- nearly black
    have hc : Color.clamp (fin n / fin d) 1 0 = fin 1 := by
      rw [← hz, fin_div_zero]
      have : n = 0 := le_antisymm (hz ▸ n1) n0
      rw [this, show infOf 0 = nan by simp [infOf]]
      simpa using Color.clamp_nan 1 0 zero_le_one
    rw [hc, one_def, fin_sub, sub_self, FloatModel.rnd_zero, fin_mul, zero_mul, FloatModel.rnd_zero]
    refine ⟨0, rfl, ?_⟩
    rw [abs_le]; constructor <;> linarith
  · have q0 : 0 ≤ n / d := by positivity
    have q1 : n / d ≤ 1 := by rw [div_le_one hz]; exact n1
    have hq : Near (fin n / fin d) (n / d) (2 / 1000000) := by
      rw [fin_div _ _ hz.ne']
      refine (near_rnd (by rw [abs_of_nonneg q0]; linarith)).weaken ?_
      rw [abs_of_nonneg q0]; linarith
    have h2 := (((near_fin 1).sub (hq.clamp01 q0 q1) 1 (by rw [abs_le]; constructor <;> linarith) (by norm_num)).mul (near_fin d) 1 1
      (by rw [abs_le]; constructor <;> linarith) (by rw [abs_of_pos hz]; exact d1) (by norm_num))
    obtain ⟨y, e1, e2⟩ := h2
    refine ⟨y, by simpa only [one_def, zero_def] using e1, ?_⟩
    have : (1 - n / d) * d = d - n := by field_simp
    rw [this] at e2
    norm_num at e2
    rw [abs_le] at e2 ⊢
    constructor <;> linarith

theorem cmyk_near {c : Color} {r g b : ℝ} (h : IsRgb c r g b) : ∃ d r' g' b', Leaf.rgb_deep_to_cmyk c = ok d ∧
    Leaf.cmyk_to_rgb_deep d = ok { c with comps := [fin r', fin g', fin b'] } ∧ |r' - r| ≤ 1 / 50000 ∧ |g' - g| ≤ 1 / 50000 ∧ |b' - b| ≤ 1 / 50000 := by
  obtain ⟨-, -, r0, r1, g0, g1, b0, b1⟩ := id h
  set m := max (max r g) b with hm
  have hr2 : r ≤ m := (le_max_left _ _).trans (le_max_left _ _)
  have hg2 : g ≤ m := (le_max_right _ _).trans (le_max_left _ _)
  have hb2 : b ≤ m := le_max_right _ _
  have hm1 : m ≤ 1 := max_le (max_le r1 g1) b1
  obtain ⟨r', er, nr⟩ := (cmyk_channel r0 hr2 hm1).clamp01 r0 r1
  obtain ⟨g', eg, ng⟩ := (cmyk_channel g0 hg2 hm1).clamp01 g0 g1
  obtain ⟨b', eb, nb⟩ := (cmyk_channel b0 hb2 hm1).clamp01 b0 b1
  suffices hs : ∃ d, Leaf.rgb_deep_to_cmyk c = ok d ∧ Leaf.cmyk_to_rgb_deep d = ok (obj .rgbDeep r' g' b' c.malpha c.space) by
    obtain ⟨d, h1, h2⟩ := hs
    rw [obj_rgb h] at h2
    exact ⟨d, r', g', b', h1, h2, nr, ng, nb⟩
  rw [rgb_eq h]
  generalize c.malpha = al
  generalize c.space = sp
  refine ⟨Color.mkCmyk ((1 - fin r - (1 - fin m)) / (1 - (1 - fin m))) ((1 - fin g - (1 - fin m)) / (1 - (1 - fin m))) ((1 - fin b - (1 - fin m)) / (1 - (1 - fin m))) (1 - fin m) al sp, ?_, ?_⟩
  · simp only [Leaf.rgb_deep_to_cmyk, obj_0, obj_1, obj_2, obj_space, obj_malpha, obj_alpha _ _ _ _ _ _ (rfl : Color.scalesAlpha .rgbDeep = false), ok_bind, fmax_fin, Color.construct_cmyk]
    rfl
  · have hal : ∀ (xs : List Fl), (⟨.cmyk, .cmyk, xs, al, 1, 0, sp⟩ : Color).alpha = al := fun _ => rfl
    simp only [Color.mkCmyk, Leaf.cmyk_to_rgb_deep, Conv.get4_0, Conv.get4_1, Conv.get4_2, Conv.get4_3, ok_bind, Color.construct_rgbDeep, hal]
    simp only [Color.mkRgbDeep, er, eg, eb, obj, obj_space, obj_malpha]
    rfl

/-- **C125** RGB_DEEP → CMYK → RGB_DEEP moves no channel by more than 1/50000, and keeps opacity and colour space, whatever the (small) rounding errors. -/
theorem C125_cmyk (w : World) (c : Color) (r g b : ℝ) (h : IsRgb c r g b) : ∃ r' g' b',
    Trip w c .cmyk .rgbDeep { c with comps := [fin r', fin g', fin b'] } ∧ |r' - r| ≤ 1 / 50000 ∧ |g' - g| ≤ 1 / 50000 ∧ |b' - b| ≤ 1 / 50000 := by
  obtain ⟨d, r', g', b', h1, h2, h3⟩ := cmyk_near h
  exact ⟨r', g', b', trip_of (s := .rgbDeep) (by decide) (by decide) (by decide) h.col h1 h2, h3⟩

/-- Case: a colour of which no channel is representable in decimal or binary32 without rounding errors in between. -/
example (w : World) : ∃ r' g' b', Trip w (rgbOf 0.1 0.7 0.3 1 none) .cmyk .rgbDeep { rgbOf 0.1 0.7 0.3 1 none with comps := [fin r', fin g', fin b'] } ∧
    |r' - 0.1| ≤ 1 / 50000 ∧ |g' - 0.7| ≤ 1 / 50000 ∧ |b' - 0.3| ≤ 1 / 50000 := C125_cmyk w _ _ _ _ (isRgb_rgbOf _ _ (by norm_num))

omit [IntExact] in
/-- A value close to `n/255` becomes `n` again. -/
theorem back_to_byte' {n : ℕ} (hn : n ≤ 255) {x : ℝ} (hx : |x - n / 255| ≤ 19 / 10000) : Fl.round (fin x * 255) = fin n := by
  have hn0 : (0 : ℝ) ≤ n := Nat.cast_nonneg n
  have hn1 : (n : ℝ) ≤ 255 := by exact_mod_cast hn
  rw [abs_le] at hx
  have hx' : |x * 255 - n| ≤ 4845 / 10000 := by rw [abs_le]; constructor <;> linarith
  obtain ⟨y, hy, he⟩ := near (x * 255) (by rw [abs_le] at hx' ⊢; constructor <;> linarith)
  have hb : |x * 255| ≤ 256 := by rw [abs_le] at hx' ⊢; constructor <;> linarith
  have : |y - n| < 1 / 2 := by
    rw [abs_le] at hx'
    have he' : |y - x * 255| ≤ 257 / 1000000 := he.trans (by linarith)
    rw [abs_le] at he'
    rw [abs_lt]; constructor <;> linarith
  simp only [lit_def]
  rw [fin_mul, hy, round_fin, roundR_near this]
  simp

/-- An 8-bit colour as RGB_DEEP colour, and how far the channels may be off to get the 8-bit colour back. -/
theorem byte_deep (R G B A : ℕ) (hR : R ≤ 255) (hG : G ≤ 255) (hB : B ≤ 255) (hA : A ≤ 255) (sp : Option Nat) (c : Color)
    (hc : Color.construct .rgbTrue [fin R, fin G, fin B] (fin A) sp = ok c) : IsColor .rgbTrue c ∧ ∃ d r g b,
      Leaf.rgb_true_to_rgb_deep c = ok d ∧ IsRgb d r g b ∧ (fin r = Color.clamp (fin R / 255) 1 0 ∧ fin g = Color.clamp (fin G / 255) 1 0 ∧ fin b = Color.clamp (fin B / 255) 1 0) ∧
      (|r - R / 255| ≤ 1 / 100000 ∧ |g - G / 255| ≤ 1 / 100000 ∧ |b - B / 255| ≤ 1 / 100000) ∧
      ∀ x y z : ℝ, |x - R / 255| ≤ 19 / 10000 → |y - G / 255| ≤ 19 / 10000 → |z - B / 255| ≤ 19 / 10000 →
        Leaf.rgb_deep_to_rgb_true { d with comps := [fin x, fin y, fin z] } = ok c := by
  obtain ⟨al, h1, h2⟩ := true_deep_vals R G B A hR hG hB hA sp c hc
  rw [Color.construct_rgbTrue, ok_inj] at hc
  refine ⟨by subst hc; exact ⟨rfl, rfl, rfl, rfl, rfl⟩, ?_⟩
  obtain ⟨r, er, nr⟩ := byte_frac hR
  obtain ⟨g, eg, ng⟩ := byte_frac hG
  obtain ⟨b, eb, nb⟩ := byte_frac hB
  have lim : ∀ x y : ℝ, Color.clamp (fin R / 255) 1 0 = fin x ∨ Color.clamp (fin G / 255) 1 0 = fin x ∨ Color.clamp (fin B / 255) 1 0 = fin x → 0 ≤ x ∧ x ≤ 1 := by
    have : ∀ v : Fl, ∀ x : ℝ, Color.clamp v 1 0 = fin x → 0 ≤ x ∧ x ≤ 1 := by
      intro v x hv
      have := Color.clamp_inRange v (mx := 1) (mn := 0) (by norm_num)
      simp only [one_def, zero_def] at hv
      rw [hv] at this; simpa using this
    intro x _ hx
    rcases hx with hx | hx | hx <;> exact this _ _ hx
  have lr := lim r r (.inl er)
  have lg := lim g g (.inr (.inl eg))
  have lb := lim b b (.inr (.inr eb))
  refine ⟨_, r, g, b, h1, ⟨⟨rfl, rfl, rfl, rfl, rfl⟩, ?_, lr.1, lr.2, lg.1, lg.2, lb.1, lb.2⟩, ⟨er.symm, eg.symm, eb.symm⟩, ⟨nr, ng, nb⟩, ?_⟩
  · simp only [Color.mkRgbDeep, er, eg, eb]
  · intro x y z hx hy hz
    have w3 : ∀ x n : ℝ, |x - n| ≤ 1 / 100000 → |x - n| ≤ 19 / 10000 := fun x n h => h.trans (by norm_num)
    simp only [Leaf.rgb_deep_to_rgb_true, Color.mkRgbDeep, er, eg, eb, Conv.get3_0, Conv.get3_1, Conv.get3_2, ok_bind, Color.alpha, Color.scalesAlpha,
      Bool.false_eq_true, if_false, back_to_byte' hR (w3 _ _ nr), back_to_byte' hG (w3 _ _ ng), back_to_byte' hB (w3 _ _ nb)] at h2
    simp only [Leaf.rgb_deep_to_rgb_true, Color.mkRgbDeep, Conv.get3_0, Conv.get3_1, Conv.get3_2, ok_bind, Color.alpha, Color.scalesAlpha,
      Bool.false_eq_true, if_false, back_to_byte' hR hx, back_to_byte' hG hy, back_to_byte' hB hz]
    exact h2

/-- **C125** An 8-bit colour survives the trip through CMYK exactly, whatever the (small) rounding errors. -/
theorem C125_bytes (w : World) (R G B A : ℕ) (hR : R ≤ 255) (hG : G ≤ 255) (hB : B ≤ 255) (hA : A ≤ 255) (sp : Option Nat) (c : Color)
    (hc : Color.construct .rgbTrue [fin R, fin G, fin B] (fin A) sp = ok c) : Trip w c .cmyk .rgbTrue c := by
  obtain ⟨hcol, d, r, g, b, h1, hd, -, hn, hback⟩ := byte_deep R G B A hR hG hB hA sp c hc
  obtain ⟨e, r', g', b', h2, h3, h4⟩ := cmyk_near hd
  have tri : ∀ x y z : ℝ, |x - y| ≤ 1 / 50000 → |y - z| ≤ 1 / 100000 → |x - z| ≤ 19 / 10000 := by
    intro x y z h h'; have := abs_sub_le x y z; linarith
  refine trip_of (s := .rgbTrue) (by decide) (by decide) (by decide) hcol (d := e) ?_ ?_
  · show (Leaf.rgb_true_to_rgb_deep c >>= Leaf.rgb_deep_to_cmyk) = ok e
    rw [h1, ok_bind, h2]
  · show (Leaf.cmyk_to_rgb_deep e >>= Leaf.rgb_deep_to_rgb_true) = ok c
    rw [h3, ok_bind]
    exact hback _ _ _ (tri _ _ _ h4.1 hn.1) (tri _ _ _ h4.2.1 hn.2.1) (tri _ _ _ h4.2.2 hn.2.2)

/-- Case: a dark half transparent brown, in binary32. -/
example (w : World) : letI := Binary32.binary32
    Trip w (Color.mkRgbTrue (fin (3 : ℕ)) (fin (2 : ℕ)) (fin (1 : ℕ)) (fin (127 : ℕ)) none) .cmyk .rgbTrue
      (Color.mkRgbTrue (fin (3 : ℕ)) (fin (2 : ℕ)) (fin (1 : ℕ)) (fin (127 : ℕ)) none) :=
  letI := Binary32.binary32
  letI := Binary32.binary32_int
  letI := Binary32.binary32_small
  C125_bytes w 3 2 1 127 (by norm_num) (by norm_num) (by norm_num) (by norm_num) none _ (Color.construct_rgbTrue _ _ _ _ _)

/-! ## C126 -/

omit [IntExact] in
/-- **C126** RGB_DEEP → HSV → RGB_DEEP moves red and green by at most 1/5000 in every arithmetic with small errors, and keeps opacity and colour space.
Blue also moves by at most 1/5000, unless the hue lies between 359 and 360 degrees (`HueGap`): then blue becomes the blue of 359 degrees, up to 1/5000.
Only for a difference of blue and green of at most 1/10000 either may happen. -/
theorem C126_hsv_partial (w : World) (c : Color) (r g b : ℝ) (h : IsRgb c r g b) : ∃ r' g' b',
    Trip w c .hsv .rgbDeep { c with comps := [fin r', fin g', fin b'] } ∧ |r' - r| ≤ 1 / 5000 ∧ |g' - g| ≤ 1 / 5000 ∧
    (¬ HueGap r g b → |b' - b| ≤ 1 / 5000) ∧ (HueGap r g b → 1 / 10000 < b - g → |b' - (g + (r - g) / 60)| ≤ 1 / 5000) ∧
    (HueGap r g b → |b' - b| ≤ 1 / 5000 ∨ |b' - (g + (r - g) / 60)| ≤ 1 / 5000) := by
  obtain ⟨d, r', g', b', h1, h2, h3, h4, h5⟩ := hsv_near h
  refine ⟨r', g', b', trip_of (s := .rgbDeep) (by decide) (by decide) (by decide) h.col h1 h2, h3, h4, ?_, ?_, ?_⟩
  · intro hg
    rcases h5 with h5 | h5
    · exact h5.1
    · exact absurd h5.1 hg
  · intro hg hlt
    rcases h5 with h5 | h5
    · exact absurd (h5.2 hg) (not_le.mpr hlt)
    · rw [gapBlue, if_pos hg] at h5; exact h5.2
  · intro hg
    rcases h5 with h5 | h5
    · exact .inl h5.1
    · rw [gapBlue, if_pos hg] at h5; exact .inr h5.2

/-- Cases: a colour that comes back, and one with a hue between 359 and 360 degrees, whose blue is lifted. -/
example (w : World) : ∃ r' g' b', Trip w (rgbOf 0.1 0.7 0.3 1 none) .hsv .rgbDeep { rgbOf 0.1 0.7 0.3 1 none with comps := [fin r', fin g', fin b'] } ∧
    |r' - 0.1| ≤ 1 / 5000 ∧ |g' - 0.7| ≤ 1 / 5000 ∧ |b' - 0.3| ≤ 1 / 5000 := by
  obtain ⟨r', g', b', h1, h2, h3, h4, -⟩ := C126_hsv_partial w (rgbOf 0.1 0.7 0.3 1 none) _ _ _ (isRgb_rgbOf _ _ (by norm_num))
  exact ⟨r', g', b', h1, h2, h3, h4 (by norm_num [HueGap])⟩
example (w : World) : ∃ r' g' b', Trip w (rgbOf 1 0.4 0.405 1 none) .hsv .rgbDeep { rgbOf 1 0.4 0.405 1 none with comps := [fin r', fin g', fin b'] } ∧
    |b' - 0.41| ≤ 1 / 5000 := by
  obtain ⟨r', g', b', h1, -, -, -, h5, -⟩ := C126_hsv_partial w (rgbOf 1 0.4 0.405 1 none) _ _ _ (isRgb_rgbOf _ _ (by norm_num))
  refine ⟨r', g', b', h1, ?_⟩
  have := h5 (by norm_num [HueGap]) (by norm_num)
  norm_num at this ⊢
  exact this

omit [SmallError] in
/-- The order of two bytes is the order of the channels made from them. -/
theorem byte_mono {m n : ℕ} (h : m ≤ n) {x y : ℝ} (hx : fin x = Color.clamp (fin m / 255) 1 0) (hy : fin y = Color.clamp (fin n / 255) 1 0) : x ≤ y := by
  have e : ∀ k : ℕ, (fin k / 255 : Fl) = rnd ((k : ℝ) / 255) := fun k => by rw [lit_def, fin_div _ _ (by norm_num)]
  have hm : rnd ((m : ℝ) / 255) ≤ rnd ((n : ℝ) / 255) := FloatModel.rnd_mono _ _ (by
    have : (m : ℝ) ≤ n := by exact_mod_cast h
    gcongr)
  rw [e] at hx hy
  have hfin : ∀ k : ℕ, rnd ((k : ℝ) / 255) ≠ nan := by
    intro k hk
    have : rnd (0 : ℝ) ≤ rnd ((k : ℝ) / 255) := FloatModel.rnd_mono _ _ (by positivity)
    rw [hk] at this; exact le_nan this
  have key : ∀ u v : Fl, u ≤ v → ∀ x y : ℝ, fin x = Color.clamp u 1 0 → fin y = Color.clamp v 1 0 → x ≤ y := by
    intro u v huv x y h1 h2
    simp only [one_def, zero_def] at h1 h2
    have hc1 := Color.clamp_inRange u (mx := 1) (mn := 0) (by norm_num)
    have hc2 := Color.clamp_inRange v (mx := 1) (mn := 0) (by norm_num)
    rw [← h1] at hc1; rw [← h2] at hc2
    simp only [inRange_fin] at hc1 hc2
    cases u with
    | nan => exact absurd huv nan_le
    | pinf =>
      cases v with
      | nan => exact absurd huv le_nan
      | pinf => rw [← h2, fin_inj] at h1; exact h1.le
      | ninf => exact absurd huv not_pinf_le_ninf
      | fin v => exact absurd huv not_pinf_le_fin
    | ninf =>
      have : Color.clamp ninf (fin 1) (fin 0) = fin 0 := by simp [Color.clamp, Fl.fmin, Fl.fmax]
      rw [this, fin_inj] at h1
      rw [h1]; exact hc2.1
    | fin u =>
      cases v with
      | nan => exact absurd huv le_nan
      | pinf =>
        have : Color.clamp pinf (fin 1) (fin 0) = fin 1 := by simp [Color.clamp, Fl.fmin, Fl.fmax]
        rw [this, fin_inj] at h2
        rw [h2]; exact hc1.2
      | ninf => exact absurd huv not_fin_le_ninf
      | fin v =>
        rw [Color.clamp_fin, fin_inj] at h1 h2
        rw [h1, h2]
        exact max_le_max (min_le_min (by simpa using huv) le_rfl) le_rfl
  exact key _ _ hm _ _ hx hy

omit [IntExact] [SmallError] [FloatModel] in
/-- What is left of the blue of an 8-bit colour after a trip that moves the deep channels by at most `1/2000` and limits the hue. -/
theorem gap_bytes {R G B : ℕ} {r g b b' : ℝ} (hr : |r - R / 255| ≤ 1 / 100000) (hg : |g - G / 255| ≤ 1 / 100000) (hb : |b - B / 255| ≤ 1 / 100000)
    (hgb : B ≤ G → b ≤ g) (hok : G < B → R ≤ G + 60 * (B - G) + 20) {P : Prop} (h : |b' - b| ≤ 1 / 2000 ∧ P ∨ HueGap r g b ∧ |b' - gapBlue r g b| ≤ 1 / 2000) :
    |b' - B / 255| ≤ 19 / 10000 := by
  rw [abs_le] at hr hg hb
  rcases h with ⟨h, -⟩ | ⟨hgap, h⟩
  · rw [abs_le] at h ⊢; constructor <;> linarith
  · rw [gapBlue, if_pos hgap] at h
    have hGB : G < B := by
      by_contra hGB
      exact absurd hgap.1 (not_lt.mpr (hgb (not_lt.mp hGB)))
    have h2 := hok hGB
    have h2' : (R : ℝ) ≤ G + 60 * (B - G) + 20 := by
      have : R + 60 * G ≤ G + 60 * B + 20 := by omega
      have : ((R + 60 * G : ℕ) : ℝ) ≤ ((G + 60 * B + 20 : ℕ) : ℝ) := by exact_mod_cast this
      push_cast at this; linarith
    have h3 := hgap.2
    rw [abs_le] at h ⊢
    constructor <;> linarith

omit [IntExact] [SmallError] [FloatModel] in
/-- When the hue of an 8-bit colour is far inside the gap, its blue ends up half a step too high. -/
theorem gap_lifts {R G B : ℕ} {r g b b' : ℝ} (hr : |r - R / 255| ≤ 1 / 100000) (hg : |g - G / 255| ≤ 1 / 100000) (hb : |b - B / 255| ≤ 1 / 100000)
    (hGB : G < B) (hgap : G + 60 * (B - G) + 40 ≤ R) (h : |b' - b| ≤ 1 / 2000 ∧ (HueGap r g b → b - g ≤ 1 / 10000) ∨ HueGap r g b ∧ |b' - gapBlue r g b| ≤ 1 / 2000) :
    (B : ℝ) / 255 + 1 / 500 ≤ b' := by
  have h2' : (G : ℝ) + 60 * (B - G) + 40 ≤ R := by
    have : G + 60 * B + 40 ≤ R + 60 * G := by omega
    have : ((G + 60 * B + 40 : ℕ) : ℝ) ≤ ((R + 60 * G : ℕ) : ℝ) := by exact_mod_cast this
    push_cast at this; linarith
  have h1' : (G : ℝ) + 1 ≤ B := by exact_mod_cast hGB
  rw [abs_le] at hr hg hb
  have hg' : HueGap r g b := ⟨by linarith, by linarith⟩
  rcases h with ⟨-, h⟩ | ⟨-, h⟩
  · have := h hg'; linarith
  · rw [gapBlue, if_pos hg', abs_le] at h
    linarith

omit [IntExact] in
/-- A deep blue channel half a step too high becomes another 8-bit blue. -/
theorem byte_lifted {B : ℕ} (hB : B + 1 ≤ 255) {z : ℝ} (h0 : (B : ℝ) / 255 + 1 / 500 ≤ z) (h1 : z ≤ 2) :
    Color.clamp (Fl.round (fin z * 255)) 255 0 ≠ fin B := by
  have hB0 : (0 : ℝ) ≤ B := Nat.cast_nonneg B
  have hB1 : (B : ℝ) + 1 ≤ 255 := by exact_mod_cast hB
  obtain ⟨y, hy, ny⟩ := near_rnd (r := z * 255) (by rw [abs_of_nonneg (by linarith)]; linarith)
  rw [abs_of_nonneg (a := z * 255) (by linarith)] at ny
  have ny' := abs_le.mp ny
  have hy' : (B : ℝ) + 1 / 2 ≤ y := by linarith
  simp only [lit_def, zero_def]
  rw [fin_mul, hy, round_fin, Color.clamp_fin]
  intro h
  rw [fin_inj] at h
  have hr : (B : ℝ) + 1 ≤ roundR y := by
    unfold roundR
    rw [if_pos (by linarith)]
    have : ((B + 1 : ℕ) : ℤ) ≤ ⌊y + 1 / 2⌋ := by rw [Int.le_floor]; push_cast; linarith
    exact_mod_cast this
  have := le_max_left (min (roundR y : ℝ) 255) 0
  have : min ((B : ℝ) + 1) 255 ≤ min (roundR y : ℝ) 255 := min_le_min_right _ hr
  rw [min_eq_left hB1] at this
  linarith

/-- **C126 (partial)** An 8-bit colour survives the trip through HSV exactly in every arithmetic with small errors, unless it is a slightly bluish red with
a hue well between 359 and 360 degrees. -/
theorem C126_bytes_partial (w : World) (R G B A : ℕ) (hR : R ≤ 255) (hG : G ≤ 255) (hB : B ≤ 255) (hA : A ≤ 255) (sp : Option Nat) (c : Color)
    (hc : Color.construct .rgbTrue [fin R, fin G, fin B] (fin A) sp = ok c) (hok : G < B → R ≤ G + 60 * (B - G) + 20) : Trip w c .hsv .rgbTrue c := by
  obtain ⟨hcol, d, r, g, b, h1, hd, ⟨-, eg, eb⟩, hn, hback⟩ := byte_deep R G B A hR hG hB hA sp c hc
  obtain ⟨e, r', g', b', h2, h3, n1, n2, n3⟩ := hsv_near hd
  have tri : ∀ x y z : ℝ, |x - y| ≤ 1 / 5000 → |y - z| ≤ 1 / 100000 → |x - z| ≤ 19 / 10000 := by
    intro x y z h h'; have := abs_sub_le x y z; linarith
  have hb := gap_bytes hn.1 hn.2.1 hn.2.2 (fun h => byte_mono h eb eg) hok (n3.imp (fun h => ⟨h.1.trans (by norm_num), h.2⟩) (fun h => ⟨h.1, h.2.trans (by norm_num)⟩))
  refine trip_of (s := .rgbTrue) (by decide) (by decide) (by decide) hcol (d := e) ?_ ?_
  · show (Leaf.rgb_true_to_rgb_deep c >>= Leaf.rgb_deep_to_hsv) = ok e
    rw [h1, ok_bind, h2]
  · show (Leaf.hsv_to_rgb_deep e >>= Leaf.rgb_deep_to_rgb_true) = ok c
    rw [h3, ok_bind]
    exact hback _ _ _ (tri _ _ _ n1 hn.1) (tri _ _ _ n2 hn.2.1) hb

/-- The 8-bit colour with another blue. -/
theorem lifted_trip (w : World) {R G B A : ℕ} (hR : R ≤ 255) (hG : G ≤ 255) (hB : B ≤ 255) (hA : A ≤ 255) {sp : Option Nat} {c : Color} {t : ColorType}
    (ht1 : t ≠ .undefined) (ht2 : ColorType.rgbTrue ≠ t)
    (hc : Color.construct .rgbTrue [fin R, fin G, fin B] (fin A) sp = ok c) (hcol : IsColor .rgbTrue c) {d e : Color} {x y z : ℝ}
    (h1 : Val.conv .rgbTrue t w c = ok e) (h2 : Val.conv t .rgbTrue w e = Leaf.rgb_deep_to_rgb_true { d with comps := [fin x, fin y, fin z] })
    (hB1 : B + 1 ≤ 255) (hz : (B : ℝ) / 255 + 1 / 500 ≤ z) (hz1 : z ≤ 2) : ¬ Trip w c t .rgbTrue c := by
  obtain ⟨c', hc', h3⟩ : ∃ c', Leaf.rgb_deep_to_rgb_true { d with comps := [fin x, fin y, fin z] } = ok c' ∧ c'.comps[2]? = some (Color.clamp (Fl.round (fin z * 255)) 255 0) := by
    simp only [Leaf.rgb_deep_to_rgb_true, Conv.get3_0, Conv.get3_1, Conv.get3_2, ok_bind, Color.construct_rgbTrue]
    exact ⟨_, rfl, rfl⟩
  intro hT
  have hT' := trip_of (s := .rgbTrue) (by decide) ht1 ht2 hcol h1 (h2.trans hc')
  have := hT.unique hT'
  rw [← this] at h3
  rw [Color.construct_rgbTrue, ok_inj] at hc
  have hBr : (B : ℝ) ≤ 255 := by exact_mod_cast hB
  have hcB : Color.clamp (fin B) 255 0 = fin B := by simp [Color.clamp_fin, hBr]
  rw [← hc] at h3
  simp only [Color.mkRgbTrue, List.getElem?_cons_succ, List.getElem?_cons_zero, Option.some.injEq] at h3
  rw [hcB] at h3
  exact byte_lifted hB1 hz hz1 h3.symm

/-- **C126 violated** Every 8-bit colour whose hue lies far enough between 359 and 360 degrees comes back from HSV with another blue. -/
theorem C126_bytes_violated (w : World) (R G B A : ℕ) (hR : R ≤ 255) (hG : G ≤ 255) (hB : B ≤ 255) (hA : A ≤ 255) (sp : Option Nat) (c : Color)
    (hc : Color.construct .rgbTrue [fin R, fin G, fin B] (fin A) sp = ok c) (hGB : G < B) (hgap : G + 60 * (B - G) + 40 ≤ R) : ¬ Trip w c .hsv .rgbTrue c := by
  obtain ⟨hcol, d, r, g, b, h1, hd, ⟨-, eg, eb⟩, hn, hback⟩ := byte_deep R G B A hR hG hB hA sp c hc
  obtain ⟨e, r', g', b', h2, h3, n1, n2, n3⟩ := hsv_near hd
  have hz := gap_lifts hn.1 hn.2.1 hn.2.2 hGB hgap (n3.imp (fun h => ⟨h.1.trans (by norm_num), h.2⟩) (fun h => ⟨h.1, h.2.trans (by norm_num)⟩))
  have hz1 : b' ≤ 2 := by
    have := gapBlue_range (b := b) hd.r1 hd.g0 hd.b0 hd.b1
    rcases n3 with n3 | n3
    · have := abs_le.mp n3.1; linarith [hd.b1]
    · have := abs_le.mp n3.2; linarith
  refine lifted_trip w hR hG hB hA (by decide) (by decide) hc hcol (e := e) (d := d) (x := r') (y := g') (z := b') ?_ ?_ (by omega) hz hz1
  · show (Leaf.rgb_true_to_rgb_deep c >>= Leaf.rgb_deep_to_hsv) = ok e
    rw [h1, ok_bind, h2]
  · show (Leaf.hsv_to_rgb_deep e >>= Leaf.rgb_deep_to_rgb_true) = _
    rw [h3, ok_bind]

/-- Cases: orange comes back, `(255, 0, 1)` does not. -/
example (w : World) : letI := Binary32.binary32
    Trip w (Color.mkRgbTrue (fin (255 : ℕ)) (fin (127 : ℕ)) (fin (0 : ℕ)) (fin (255 : ℕ)) none) .hsv .rgbTrue
      (Color.mkRgbTrue (fin (255 : ℕ)) (fin (127 : ℕ)) (fin (0 : ℕ)) (fin (255 : ℕ)) none) :=
  letI := Binary32.binary32
  letI := Binary32.binary32_int
  letI := Binary32.binary32_small
  C126_bytes_partial w 255 127 0 255 (by norm_num) (by norm_num) (by norm_num) (by norm_num) none _ (Color.construct_rgbTrue _ _ _ _ _) (by norm_num)
example (w : World) : letI := Binary32.binary32
    ¬ Trip w (Color.mkRgbTrue (fin (255 : ℕ)) (fin (0 : ℕ)) (fin (1 : ℕ)) (fin (255 : ℕ)) none) .hsv .rgbTrue
      (Color.mkRgbTrue (fin (255 : ℕ)) (fin (0 : ℕ)) (fin (1 : ℕ)) (fin (255 : ℕ)) none) :=
  letI := Binary32.binary32
  letI := Binary32.binary32_int
  letI := Binary32.binary32_small
  C126_bytes_violated w 255 0 1 255 (by norm_num) (by norm_num) (by norm_num) (by norm_num) none _ (Color.construct_rgbTrue _ _ _ _ _) (by norm_num) (by norm_num)

/-! ## C127 -/

/-- **C127** RGB_DEEP → HSL → RGB_DEEP, for colours with a channel of at least 1/1000, moves red and green by at most 1/2000 in every arithmetic with small
errors; blue as well unless the hue lies between 359 and 360 degrees, then it becomes the blue of 359 degrees, up to 1/2000. -/
theorem C127_hsl_partial (w : World) (c : Color) (r g b : ℝ) (h : IsRgb c r g b) (hbl : 1 / 1000 ≤ r ∨ 1 / 1000 ≤ g ∨ 1 / 1000 ≤ b) : ∃ r' g' b',
    Trip w c .hsl .rgbDeep { c with comps := [fin r', fin g', fin b'] } ∧ |r' - r| ≤ 1 / 2000 ∧ |g' - g| ≤ 1 / 2000 ∧
    (¬ HueGap r g b → |b' - b| ≤ 1 / 2000) ∧ (HueGap r g b → 1 / 10000 < b - g → |b' - (g + (r - g) / 60)| ≤ 1 / 2000) ∧
    (HueGap r g b → |b' - b| ≤ 1 / 2000 ∨ |b' - (g + (r - g) / 60)| ≤ 1 / 2000) := by
  have hbl' : 1 / 1000 ≤ max (max r g) b := by
    rcases hbl with h | h | h
    · exact h.trans ((le_max_left _ _).trans (le_max_left _ _))
    · exact h.trans ((le_max_right _ _).trans (le_max_left _ _))
    · exact h.trans (le_max_right _ _)
  obtain ⟨d, r', g', b', h1, h2, h3, h4, h5⟩ := hsl_near h hbl'
  refine ⟨r', g', b', trip_of (s := .rgbDeep) (by decide) (by decide) (by decide) h.col h1 h2, h3, h4, ?_, ?_, ?_⟩
  · intro hg
    rcases h5 with h5 | h5
    · exact h5.1
    · exact absurd h5.1 hg
  · intro hg hlt
    rcases h5 with h5 | h5
    · exact absurd (h5.2 hg) (not_le.mpr hlt)
    · rw [gapBlue, if_pos hg] at h5; exact h5.2
  · intro hg
    rcases h5 with h5 | h5
    · exact .inl h5.1
    · rw [gapBlue, if_pos hg] at h5; exact .inr h5.2

/-- Case: a colour that comes back. -/
example (w : World) : ∃ r' g' b', Trip w (rgbOf 0.1 0.7 0.3 1 none) .hsl .rgbDeep { rgbOf 0.1 0.7 0.3 1 none with comps := [fin r', fin g', fin b'] } ∧
    |r' - 0.1| ≤ 1 / 2000 ∧ |g' - 0.7| ≤ 1 / 2000 ∧ |b' - 0.3| ≤ 1 / 2000 := by
  obtain ⟨r', g', b', h1, h2, h3, h4, -⟩ := C127_hsl_partial w (rgbOf 0.1 0.7 0.3 1 none) _ _ _ (isRgb_rgbOf _ _ (by norm_num)) (by norm_num)
  exact ⟨r', g', b', h1, h2, h3, h4 (by norm_num [HueGap])⟩

omit [SmallError] [IntExact] [FloatModel] in
/-- An 8-bit colour that is not black is not nearly black. -/
theorem not_black {R G B : ℕ} {r g b : ℝ} (hr : |r - R / 255| ≤ 1 / 100000) (hg : |g - G / 255| ≤ 1 / 100000) (hb : |b - B / 255| ≤ 1 / 100000)
    (h : ¬ (R = 0 ∧ G = 0 ∧ B = 0)) : 1 / 1000 ≤ max (max r g) b := by
  rw [abs_le] at hr hg hb
  have key : ∀ n : ℕ, n ≠ 0 → (1 : ℝ) ≤ n := fun n hn => by exact_mod_cast Nat.one_le_iff_ne_zero.mpr hn
  by_cases h1 : R = 0
  · by_cases h2 : G = 0
    · have := key B (fun h3 => h ⟨h1, h2, h3⟩)
      exact le_max_of_le_right (by linarith)
    · have := key G h2
      exact le_max_of_le_left (le_max_of_le_right (by linarith))
  · have := key R h1
    exact le_max_of_le_left (le_max_of_le_left (by linarith))

/-- **C127 (partial)** An 8-bit colour other than black survives the trip through HSL exactly in every arithmetic with small errors, unless it is a slightly
bluish red with a hue well between 359 and 360 degrees. -/
theorem C127_bytes_partial (w : World) (R G B A : ℕ) (hR : R ≤ 255) (hG : G ≤ 255) (hB : B ≤ 255) (hA : A ≤ 255) (sp : Option Nat) (c : Color)
    (hc : Color.construct .rgbTrue [fin R, fin G, fin B] (fin A) sp = ok c) (hbl : ¬ (R = 0 ∧ G = 0 ∧ B = 0)) (hok : G < B → R ≤ G + 60 * (B - G) + 20) :
    Trip w c .hsl .rgbTrue c := by
  obtain ⟨hcol, d, r, g, b, h1, hd, ⟨-, eg, eb⟩, hn, hback⟩ := byte_deep R G B A hR hG hB hA sp c hc
  obtain ⟨e, r', g', b', h2, h3, n1, n2, n3⟩ := hsl_near hd (not_black hn.1 hn.2.1 hn.2.2 hbl)
  have tri : ∀ x y z : ℝ, |x - y| ≤ 1 / 2000 → |y - z| ≤ 1 / 100000 → |x - z| ≤ 19 / 10000 := by
    intro x y z h h'; have := abs_sub_le x y z; linarith
  have hb := gap_bytes hn.1 hn.2.1 hn.2.2 (fun h => byte_mono h eb eg) hok n3
  refine trip_of (s := .rgbTrue) (by decide) (by decide) (by decide) hcol (d := e) ?_ ?_
  · show (Leaf.rgb_true_to_rgb_deep c >>= Leaf.rgb_deep_to_hsl) = ok e
    rw [h1, ok_bind, h2]
  · show (Leaf.hsl_to_rgb_deep e >>= Leaf.rgb_deep_to_rgb_true) = ok c
    rw [h3, ok_bind]
    exact hback _ _ _ (tri _ _ _ n1 hn.1) (tri _ _ _ n2 hn.2.1) hb

/-- **C127 violated** Every 8-bit colour whose hue lies far enough between 359 and 360 degrees comes back from HSL with another blue. -/
theorem C127_bytes_violated (w : World) (R G B A : ℕ) (hR : R ≤ 255) (hG : G ≤ 255) (hB : B ≤ 255) (hA : A ≤ 255) (sp : Option Nat) (c : Color)
    (hc : Color.construct .rgbTrue [fin R, fin G, fin B] (fin A) sp = ok c) (hGB : G < B) (hgap : G + 60 * (B - G) + 40 ≤ R) : ¬ Trip w c .hsl .rgbTrue c := by
  obtain ⟨hcol, d, r, g, b, h1, hd, ⟨-, eg, eb⟩, hn, hback⟩ := byte_deep R G B A hR hG hB hA sp c hc
  obtain ⟨e, r', g', b', h2, h3, n1, n2, n3⟩ := hsl_near hd (not_black hn.1 hn.2.1 hn.2.2 (by omega))
  have hz := gap_lifts hn.1 hn.2.1 hn.2.2 hGB hgap n3
  have hz1 : b' ≤ 2 := by
    have := gapBlue_range (b := b) hd.r1 hd.g0 hd.b0 hd.b1
    rcases n3 with n3 | n3
    · have := abs_le.mp n3.1; linarith [hd.b1]
    · have := abs_le.mp n3.2; linarith
  refine lifted_trip w hR hG hB hA (by decide) (by decide) hc hcol (e := e) (d := d) (x := r') (y := g') (z := b') ?_ ?_ (by omega) hz hz1
  · show (Leaf.rgb_true_to_rgb_deep c >>= Leaf.rgb_deep_to_hsl) = ok e
    rw [h1, ok_bind, h2]
  · show (Leaf.hsl_to_rgb_deep e >>= Leaf.rgb_deep_to_rgb_true) = _
    rw [h3, ok_bind]

/-- Cases: a dark colour comes back, `(255, 0, 1)` does not. -/
example (w : World) : letI := Binary32.binary32
    Trip w (Color.mkRgbTrue (fin (3 : ℕ)) (fin (2 : ℕ)) (fin (1 : ℕ)) (fin (127 : ℕ)) none) .hsl .rgbTrue
      (Color.mkRgbTrue (fin (3 : ℕ)) (fin (2 : ℕ)) (fin (1 : ℕ)) (fin (127 : ℕ)) none) :=
  letI := Binary32.binary32
  letI := Binary32.binary32_int
  letI := Binary32.binary32_small
  C127_bytes_partial w 3 2 1 127 (by norm_num) (by norm_num) (by norm_num) (by norm_num) none _ (Color.construct_rgbTrue _ _ _ _ _) (by norm_num) (by norm_num)
example (w : World) : letI := Binary32.binary32
    ¬ Trip w (Color.mkRgbTrue (fin (255 : ℕ)) (fin (0 : ℕ)) (fin (1 : ℕ)) (fin (255 : ℕ)) none) .hsl .rgbTrue
      (Color.mkRgbTrue (fin (255 : ℕ)) (fin (0 : ℕ)) (fin (1 : ℕ)) (fin (255 : ℕ)) none) :=
  letI := Binary32.binary32
  letI := Binary32.binary32_int
  letI := Binary32.binary32_small
  C127_bytes_violated w 255 0 1 255 (by norm_num) (by norm_num) (by norm_num) (by norm_num) none _ (Color.construct_rgbTrue _ _ _ _ _) (by norm_num) (by norm_num)

/-- **C127 violated** 8-bit black comes back from HSL fully transparent, in every arithmetic with small errors. -/
theorem C127_black_violated (w : World) (A : ℕ) (hA0 : 0 < A) (hA : A ≤ 255) (sp : Option Nat) (c : Color)
    (hc : Color.construct .rgbTrue [fin (0 : ℕ), fin (0 : ℕ), fin (0 : ℕ)] (fin A) sp = ok c) : ¬ Trip w c .hsl .rgbTrue c := by
  obtain ⟨hcol, d, r, g, b, h1, hd, ⟨er, eg, eb⟩, -, -⟩ := byte_deep 0 0 0 A (by norm_num) (by norm_num) (by norm_num) hA sp c hc
  have z : Color.clamp (fin ((0 : ℕ) : ℝ) / 255) 1 0 = fin 0 := by
    simp only [lit_def, one_def, zero_def]
    rw [fin_div _ _ (by norm_num), Nat.cast_zero, zero_div, FloatModel.rnd_zero, Color.clamp_fin]; norm_num
  rw [z, fin_inj] at er eg eb
  subst er eg eb
  have h2 : Leaf.rgb_deep_to_hsl d = ok (obj .hsl 0 0 0 d.malpha d.space) := by
    rw [rgb_eq hd]
    simp only [Leaf.rgb_deep_to_hsl, obj_0, obj_1, obj_2, obj_space, obj_malpha, obj_alpha _ _ _ _ _ _ (rfl : Color.scalesAlpha .rgbDeep = false), ok_bind, fmin_fin, fmax_fin,
      feq_fin, Color.construct_hsl, max_self, min_self, if_true]
    rw [mkHue_grey _ _ _ ⟨rfl, rfl⟩ le_rfl (by norm_num)]
  have h3 : Leaf.hsl_to_rgb_deep (obj .hsl 0 0 0 d.malpha d.space) = ok (obj .rgbDeep 0 0 0 0 d.space) := by
    simp only [Leaf.hsl_to_rgb_deep, obj_0, obj_1, obj_2, obj_space, ok_bind, zero_def, feq_fin, if_true, Color.constructGrey, Color.construct_rgbDeep]
    rw [mkRgb_obj _ _ le_rfl (by norm_num) le_rfl (by norm_num) le_rfl (by norm_num)]
  have z2 : fin 0 * (255 : Fl) = fin 0 := by rw [lit_def, fin_mul, zero_mul, FloatModel.rnd_zero]
  have z3 : Fl.round (fin 0) = fin 0 := by norm_num [roundR]
  obtain ⟨c', h4, h5⟩ : ∃ c', Leaf.rgb_deep_to_rgb_true (obj .rgbDeep 0 0 0 0 d.space) = ok c' ∧ c'.malpha = fin 0 := by
    simp only [Leaf.rgb_deep_to_rgb_true, obj_0, obj_1, obj_2, obj_space, obj_malpha, obj_alpha _ _ _ _ _ _ (rfl : Color.scalesAlpha .rgbDeep = false), ok_bind, Color.construct_rgbTrue]
    refine ⟨_, rfl, ?_⟩
    rw [zero_def, z2, z3]
    simp only [Color.mkRgbTrue]
    simpa using z
  intro hT
  have hT' : Trip w c .hsl .rgbTrue c' := by
    refine trip_of (s := .rgbTrue) (by decide) (by decide) (by decide) hcol (d := obj .hsl 0 0 0 d.malpha d.space) ?_ ?_
    · show (Leaf.rgb_true_to_rgb_deep c >>= Leaf.rgb_deep_to_hsl) = _
      rw [h1, ok_bind, h2]
    · show (Leaf.hsl_to_rgb_deep _ >>= Leaf.rgb_deep_to_rgb_true) = ok c'
      rw [h3, ok_bind, h4]
  rw [← hT.unique hT'] at h5
  rw [Color.construct_rgbTrue, ok_inj] at hc
  obtain ⟨a, ea, na⟩ := byte_frac hA
  rw [← hc] at h5
  simp only [Color.mkRgbTrue] at h5
  rw [ea, fin_inj] at h5
  have : (1 : ℝ) ≤ A := by exact_mod_cast hA0
  rw [h5, abs_le] at na
  linarith

/-- Case: opaque black, in binary32. -/
example (w : World) : letI := Binary32.binary32
    ¬ Trip w (Color.mkRgbTrue (fin (0 : ℕ)) (fin (0 : ℕ)) (fin (0 : ℕ)) (fin (255 : ℕ)) none) .hsl .rgbTrue
      (Color.mkRgbTrue (fin (0 : ℕ)) (fin (0 : ℕ)) (fin (0 : ℕ)) (fin (255 : ℕ)) none) :=
  letI := Binary32.binary32
  letI := Binary32.binary32_int
  letI := Binary32.binary32_small
  C127_black_violated w 255 (by norm_num) (by norm_num) none _ (Color.construct_rgbTrue _ _ _ _ _)

end

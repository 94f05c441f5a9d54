import Verif.LabGamutLemmas
import Verif.Props.Distances

/-!
# The gamuts of the preset colour spaces and the limits of the LAB class (C158)

The LAB class keeps a and b between -128 and 128.  Exact arithmetic.
-/

open Outcome Fl Prog ObjectSpec ConvSpec Hue DistSpec BlendSpec LabGamut

namespace LabSpec

/-- The colour space at address `s` was made from the preset `p` with the curves of the gamma preset `gp`, and has the white point of `p`. -/
structure Made [FloatModel] (w : World) (s : Nat) (p : SpacePreset) (gp : GammaPreset) : Prop where
  usable : w.Usable (some s)
  reach : SpaceReach w.whites (w.spaces s)
  regular : SpaceDef.Regular w.whites (w.spaces s) (presetPrimaries p) (presetWhite p)
  white : HasWhite w (some s) (presetWhite p 0) (presetWhite p 1) (presetWhite p 2)
  curves : ∃ m, (w.spaces s).gamma = some m ∧
    ∀ x, (w.gammas m).correct w.parts x = GammaPreset.evalParts gp.parts x ∧ (w.gammas m).inverse w.parts x = GammaPreset.evalParts gp.invParts x

/-- An RGB colour whose channels survive the curves of `gp` and whose opacity is between 0 and 1. -/
structure Clean [FloatModel] (gp : GammaPreset) (c : Color) (r g b a : ℝ) : Prop where
  rgb : IsRgb c r g b
  red : Curved gp r
  green : Curved gp g
  blue : Curved gp b
  alpha : c.malpha = fin a
  a0 : 0 ≤ a
  a1 : a ≤ 1

end LabSpec

open LabSpec

variable [FloatModel] [ExactModel]

theorem exists_made [StdSort] (p : SpacePreset) (gp : GammaPreset) : ∃ w : World, Made w 0 p gp := by
  obtain ⟨w, hw, hm, hq, hW, hreach, hr, he⟩ := exists_world p gp
  refine ⟨w, hw, hreach, hr, ⟨0, 0, rfl, hq, ?_⟩, 0, hm, he⟩
  rw [hW]; simp [WhitePreset.create, WhitePoint.make, presetWhite]

theorem made_curve [StdSort] {w : World} {s : Nat} {p : SpacePreset} {gp : GammaPreset} (hw : Made w s p gp) : ∃ m, (w.spaces s).gamma = some m ∧
    ∀ v : ℝ, 0 ≤ v → v ≤ 1 → Curved gp v → ∃ l, 0 ≤ l ∧ l ≤ 1 ∧ (w.gammas m).inverse w.parts (fin v) = fin l ∧ (w.gammas m).correct w.parts (fin l) = fin v := by
  obtain ⟨m, hm, he⟩ := hw.curves
  refine ⟨m, hm, fun v v0 v1 cv => ?_⟩
  obtain ⟨l, l0, l1, h1, h2⟩ := curved_trip gp v0 v1 cv
  exact ⟨l, l0, l1, by rw [(he _).2, h1], by rw [(he _).1, h2]⟩

/-- RGB to LAB and back at the level of values, in the presets that fit. -/
theorem fits_vals [StdSort] (p : SpacePreset) (hp : Fits p) (gp : GammaPreset) (w : World) (s : Nat) (hw : Made w s p gp) {r g b : ℝ} (hr : 0 ≤ r ∧ r ≤ 1 ∧ Curved gp r)
    (hg : 0 ≤ g ∧ g ≤ 1 ∧ Curved gp g) (hb : 0 ≤ b ∧ b ≤ 1 ∧ Curved gp b) : ∃ L A B, ∀ (c : Color) (a : ℝ), c.space = some s → Clean gp c r g b a →
      Val.rgb_deep_to_lab w c = ok (obj .lab L A B (fin a) (some s)) ∧ Val.lab_to_rgb_deep w (obj .lab L A B (fin a) (some s)) = ok c := by
  obtain ⟨k, hk, hk0, hl⟩ := fitting_weights p hp
  obtain ⟨m, hm, hc⟩ := made_curve hw
  have hv : ∀ v ∈ [r, g, b], ∃ l, 0 ≤ l ∧ l ≤ 1 ∧ (w.gammas m).inverse w.parts (fin v) = fin l ∧ (w.gammas m).correct w.parts (fin l) = fin v := by
    intro v hv
    simp only [List.mem_cons, List.not_mem_nil, or_false] at hv
    rcases hv with rfl | rfl | rfl
    · exact hc _ hr.1 hr.2.1 hr.2.2
    · exact hc _ hg.1 hg.2.1 hg.2.2
    · exact hc _ hb.1 hb.2.1 hb.2.2
  obtain ⟨l, hl01, hl0, X, hX, hX01, -⟩ := rgb_xyz_forms w (rgbOf r g b 1 (some s)) r g b (isRgb_rgbOf _ _ ⟨hr.1, hr.2.1, hg.1, hg.2.1, hb.1, hb.2.1⟩) s m rfl hm _ _ _ hw.reach
    hw.regular (preset_nonneg p) hk hk0 (preset_white_le p) hv
  have hlines := hl l hl01 X hX
  obtain ⟨iA, iB⟩ := hlines.inside
  have iL : 116 * labF (X 1 / presetWhite p 1) - 16 ≤ 100 := by
    rcases labF_cases hlines.y0 with ⟨h1, h2, -⟩ | ⟨-, h2, -⟩
    · by_contra hh
      have := one_lt_pow₀ (show 1 < labF (X 1 / presetWhite p 1) by linarith) (n := 3) (by norm_num)
      linarith [hlines.y1]
    · linarith
  refine ⟨116 * labF (X 1 / presetWhite p 1) - 16, 500 * (labF (X 0 / presetWhite p 0) - labF (X 1 / presetWhite p 1)),
    200 * (labF (X 1 / presetWhite p 1) - labF (X 2 / presetWhite p 2)), fun c a hs h => ?_⟩
  obtain ⟨l', -, hl0', X', hX', -, h1, h2⟩ := rgb_xyz_forms w c r g b h.rgb s m hs hm _ _ _ hw.reach hw.regular (preset_nonneg p) hk hk0 (preset_white_le p) hv
  rw [hl0.1, hl0.2.1, hl0.2.2] at hl0'
  simp only [fin.injEq] at hl0'
  have eX : X' = X := by
    ext i
    rw [hX, hX', hl0'.1, hl0'.2.1, hl0'.2.2]
  rw [eX] at h1 h2
  obtain ⟨e1, e2⟩ := lab_vals w (obj .xyz (X 0) (X 1) (X 2) c.malpha c.space) (X 0) (X 1) (X 2)
    ⟨⟨rfl, rfl, rfl, rfl, rfl⟩, rfl, (hX01 0).1, (hX01 0).2, (hX01 1).1, (hX01 1).2, (hX01 2).1, (hX01 2).2⟩ _ _ _ (hs ▸ hw.white) (white_pos p 0) (white_pos p 1) (white_pos p 2) a
    h.alpha h.a0 h.a1 iL iA iB
  simp only [obj_space, hs] at e1 e2 h1 h2
  constructor
  · change Val.rgb_deep_to_xyz w c >>= Leaf.xyz_to_lab w = _
    rw [h1, ok_bind, e1]
  · change Leaf.lab_to_xyz w _ >>= Leaf.xyz_to_rgb_deep w = _
    rw [e2, ok_bind, h2]

theorem clean_range {gp : GammaPreset} {c : Color} {r g b a : ℝ} (h : Clean gp c r g b a) :
    (0 ≤ r ∧ r ≤ 1 ∧ Curved gp r) ∧ (0 ≤ g ∧ g ≤ 1 ∧ Curved gp g) ∧ (0 ≤ b ∧ b ≤ 1 ∧ Curved gp b) :=
  ⟨⟨h.rgb.r0, h.rgb.r1, h.red⟩, ⟨h.rgb.g0, h.rgb.g1, h.green⟩, ⟨h.rgb.b0, h.rgb.b1, h.blue⟩⟩

/-- **C158** In a colour space made from a preset whose gamut fits, with any gamma preset, RGB_DEEP → LAB → RGB_DEEP is the identity for every colour whose channels survive
the gamma curves. -/
theorem C158_deep [StdSort] (p : SpacePreset) (hp : Fits p) (gp : GammaPreset) (w : World) (s : Nat) (hw : Made w s p gp) (c : Color) (r g b a : ℝ) (hs : c.space = some s)
    (h : Clean gp c r g b a) : Trip w c .lab .rgbDeep c := by
  obtain ⟨hr, hg, hb⟩ := clean_range h
  obtain ⟨L, A, B, hv⟩ := fits_vals p hp gp w s hw hr hg hb
  obtain ⟨h1, h2⟩ := hv c a hs h
  exact trip_of (s := .rgbDeep) (by decide) (by decide) (by decide) h.rgb.col h1 h2

/-- **C158** For RGB_TRUE colours with integer channels and opacity no condition on the channels is needed, except that the curve is not ROMM. -/
theorem C158_true [StdSort] (p : SpacePreset) (hp : Fits p) (gp : GammaPreset) (hgp : gp ≠ .romm) (w : World) (s : Nat) (hw : Made w s p gp) (R G B A : ℕ) (hR : R ≤ 255)
    (hG : G ≤ 255) (hB : B ≤ 255) (hA : A ≤ 255) (c : Color) (hc : Color.construct .rgbTrue [fin R, fin G, fin B] (fin A) (some s) = ok c) : Trip w c .lab .rgbTrue c := by
  obtain ⟨al, v1, v2⟩ := true_deep_vals R G B A hR hG hB hA (some s) c hc
  have unit : ∀ n : ℕ, n ≤ 255 → (0 : ℝ) ≤ n / 255 ∧ (n : ℝ) / 255 ≤ 1 := by
    intro n hn
    have : (n : ℝ) ≤ 255 := by exact_mod_cast hn
    exact ⟨by positivity, by linarith⟩
  have e : ∀ n : ℕ, (fin n : Fl) / 255 = fin (n / 255) := by
    intro n; rw [show (255 : Fl) = fin 255 by simp, div_exact _ _ (by norm_num)]
  have hdeep : Color.mkRgbDeep (fin R / 255) (fin G / 255) (fin B / 255) al (some s) = rgbOf (R / 255) (G / 255) (B / 255) al (some s) := by
    simp only [e]
    exact mkRgb_obj _ _ (unit R hR).1 (unit R hR).2 (unit G hG).1 (unit G hG).2 (unit B hB).1 (unit B hB).2
  rw [hdeep] at v1 v2
  rw [Color.construct_rgbTrue, ok_inj] at hc
  have hal : al = fin (A / 255) := by
    have ea : c.alpha / 255 = fin (A / 255) := by
      subst hc
      simp only [Color.alpha, Color.mkRgbTrue, Color.scalesAlpha, if_true, e A, clamp01 (unit A hA).1 (unit A hA).2]
      simp only [lit_def, mul_exact]
      rw [div_exact _ _ (by norm_num)]
      congr 1
      field_simp
    have := v1
    simp only [Leaf.rgb_true_to_rgb_deep, ea] at this
    subst hc
    simp only [Color.mkRgbTrue, Conv.get3_0, Conv.get3_1, Conv.get3_2, ok_bind, Color.construct_rgbDeep, ok_inj] at this
    exact (congrArg Color.malpha this).symm
  obtain ⟨L, A', B', hv⟩ := fits_vals p hp gp w s hw ⟨(unit R hR).1, (unit R hR).2, byte_curved gp hgp R⟩ ⟨(unit G hG).1, (unit G hG).2, byte_curved gp hgp G⟩
    ⟨(unit B hB).1, (unit B hB).2, byte_curved gp hgp B⟩
  obtain ⟨h1, h2⟩ := hv (rgbOf (R / 255) (G / 255) (B / 255) al (some s)) (A / 255) rfl
    ⟨isRgb_rgbOf al (some s) ⟨(unit R hR).1, (unit R hR).2, (unit G hG).1, (unit G hG).2, (unit B hB).1, (unit B hB).2⟩,
      byte_curved gp hgp R, byte_curved gp hgp G, byte_curved gp hgp B, hal, (unit A hA).1, (unit A hA).2⟩
  refine trip_of (s := .rgbTrue) (d := obj .lab L A' B' (fin (A / 255)) (some s)) (by decide) (by decide) (by decide) ?_ ?_ ?_
  · subst hc
    exact ⟨rfl, rfl, rfl, rfl, rfl⟩
  · change Leaf.rgb_true_to_rgb_deep c >>= Val.rgb_deep_to_lab w = _
    rw [v1, ok_bind, h1]
  · change (Leaf.lab_to_xyz w _ >>= fun x => Leaf.xyz_to_rgb_deep w x >>= Leaf.rgb_deep_to_rgb_true) = _
    change Leaf.lab_to_xyz w _ >>= Leaf.xyz_to_rgb_deep w = _ at h2
    cases e' : Leaf.lab_to_xyz w (obj .lab L A' B' (fin (A / 255)) (some s)) with
    | ok x => rw [e', ok_bind] at h2; rw [ok_bind, h2, ok_bind, v2]
    | throw => rw [e'] at h2; exact absurd h2 (by simp [Bind.bind, Outcome.bind])
    | ub => rw [e'] at h2; exact absurd h2 (by simp [Bind.bind, Outcome.bind])

theorem clean_valid {p : SpacePreset} {gp : GammaPreset} {w : World} {s : Nat} (hw : Made w s p gp) {c : Color} {r g b a : ℝ} (hs : c.space = some s) (h : Clean gp c r g b a) :
    Valid w .lab c := by
  have e := h.rgb.col.ctype
  refine ⟨by rw [e]; decide, by rw [e]; exact h.rgb.col, ?_, fun _ _ => hs ▸ hw.usable⟩
  have hr := h.rgb
  intro i hi
  simp only [hr.comps, List.length_cons, List.length_nil] at hi
  simp only [hr.comps, e, channelRange]
  rcases (by omega : i = 0 ∨ i = 1 ∨ i = 2) with rfl | rfl | rfl
  · exact ⟨r, rfl, hr.r0, hr.r1⟩
  · exact ⟨g, rfl, hr.g0, hr.g1⟩
  · exact ⟨b, rfl, hr.b0, hr.b1⟩

/-- Two colours whose conversions to LAB have the same components are the same but for their opacity. -/
theorem fits_view [StdSort] (p : SpacePreset) (hp : Fits p) (gp : GammaPreset) (w : World) (s : Nat) (hw : Made w s p gp) (c d : Color) (r g b a r' g' b' a' : ℝ)
    (hs : c.space = some s) (hs' : d.space = some s) (h : Clean gp c r g b a) (h' : Clean gp d r' g' b' a') : SameView w .lab c d ↔ r = r' ∧ g = g' ∧ b = b' := by
  obtain ⟨r0, g0, b0⟩ := clean_range h
  obtain ⟨r0', g0', b0'⟩ := clean_range h'
  obtain ⟨L, A, B, hv⟩ := fits_vals p hp gp w s hw r0 g0 b0
  obtain ⟨L', A', B', hv'⟩ := fits_vals p hp gp w s hw r0' g0' b0'
  have va : View w c .lab L A B := ⟨_, (converts_iff (s := .rgbDeep) (by decide) (by decide) h.rgb.col).mpr (by rw [Val.to, if_neg (by decide)]; exact (hv c a hs h).1), rfl⟩
  have vb : View w d .lab L' A' B' := ⟨_, (converts_iff (s := .rgbDeep) (by decide) (by decide) h'.rgb.col).mpr (by rw [Val.to, if_neg (by decide)]; exact (hv' d a' hs' h').1), rfl⟩
  rw [sameView_iff (by decide) (clean_valid hw hs h) (clean_valid hw hs' h') va vb]
  constructor
  · rintro ⟨rfl, rfl, rfl⟩
    have e1 := (hv c a hs h).2
    have hc2 : Clean gp { d with malpha := fin a } r' g' b' a := by
      obtain ⟨⟨⟨c1, c2, c3, c4, c5⟩, h2, h3, h4, h5, h6, h7, h8⟩, h9, h10, h11, h12, h13, h14⟩ := h'
      exact ⟨⟨⟨c1, c2, c3, c4, c5⟩, h2, h3, h4, h5, h6, h7, h8⟩, h9, h10, h11, rfl, h.a0, h.a1⟩
    have e2 := (hv' { d with malpha := fin a } a hs' hc2).2
    rw [e1, ok_inj] at e2
    have := h.rgb.comps
    rw [e2] at this
    have h3 := hc2.rgb.comps
    rw [this] at h3
    simpa using h3
  · rintro ⟨rfl, rfl, rfl⟩
    have e1 := (hv d a' hs' h').1
    rw [(hv' d a' hs' h').1, ok_inj] at e1
    have := congrArg Color.comps e1
    simp only [obj, List.cons.injEq, fin.injEq, and_true] at this
    exact ⟨this.1.symm, this.2.1.symm, this.2.2.symm⟩

/-- **C158** The CIE76 distance tells any two different colours of such a space apart: it is 0 exactly for colours with the same channels. -/
theorem C158_distance [StdSort] (p : SpacePreset) (hp : Fits p) (gp : GammaPreset) (w : World) (s : Nat) (hw : Made w s p gp) (c d : Color) (r g b a r' g' b' a' : ℝ)
    (hs : c.space = some s) (hs' : d.space = some s) (h : Clean gp c r g b a) (h' : Clean gp d r' g' b' a') :
    ∃ v : ℝ, Measures Distance.cielab_delta_e_cie76 w c d (fin v) ∧ 0 ≤ v ∧ (v = 0 ↔ r = r' ∧ g = g' ∧ b = b') := by
  obtain ⟨v, -, -, -, h1, -, -, -, v0, -, hv, -⟩ := C72_metric w c d d (clean_valid hw hs h) (clean_valid hw hs' h') (clean_valid hw hs' h')
  exact ⟨v, h1, v0, hv.trans (fits_view p hp gp w s hw c d r g b a r' g' b' a' hs hs' h h')⟩

/-! ## The other presets -/

section
variable [StdSort]

/-- The forward curves of the presets keep positive values positive and values below 1 below 1. -/
theorem curve_strict (gp : GammaPreset) {l : ℝ} (l0 : 0 ≤ l) (l1 : l ≤ 1) :
    ∃ v, GammaPreset.evalParts gp.parts (fin l) = fin v ∧ 0 ≤ v ∧ v ≤ 1 ∧ (0 < l → 0 < v) ∧ (l < 1 → v < 1) := by
  obtain ⟨g, hg, ⟨-, -, hu⟩, -⟩ := C29_ends gp (fun _ => ⟨none, 1⟩) 0
  obtain ⟨g', hg', he⟩ := preset_curves gp (fun _ => ⟨none, 1⟩) 0
  rw [hg, ok_inj] at hg'
  subst hg'
  obtain ⟨v, hv, v0, v1⟩ := hu l l0 l1
  rw [(he _).1] at hv
  refine ⟨v, hv, v0, v1, ?_⟩
  by_cases hP : gp.IsPower
  · rw [(GammaPreset.eval_power hP l0 l1).1, fin.injEq] at hv
    rw [← hv]
    have := gp.expo_pos
    exact ⟨fun lp => Real.rpow_pos_of_pos lp _, fun lq => Real.rpow_lt_one l0 lq (by positivity)⟩
  · cases gp <;> simp [GammaPreset.IsPower] at hP
    · rw [(GammaPreset.eval_sRGB l0 l1).1, fin.injEq] at hv
      rw [← hv]
      split
      · exact ⟨fun lp => by positivity, fun lq => by norm_num at *; linarith⟩
      · rename_i hh
        push Not at hh
        constructor
        · intro lp
          have h1 : l ^ (1 / 2 : ℝ) ≤ l ^ (5 / 12 : ℝ) := Real.rpow_le_rpow_of_exponent_ge lp l1 (by norm_num)
          rw [← Real.sqrt_eq_rpow] at h1
          have h2 : 0.0525 < √l := Real.lt_sqrt_of_sq_lt (by norm_num at *; linarith)
          norm_num at *
          linarith
        · intro lq
          have := Real.rpow_lt_one l0 lq (show (0 : ℝ) < 5 / 12 by norm_num)
          norm_num at *
          linarith
    · rw [(GammaPreset.eval_romm l0 l1).1, fin.injEq] at hv
      rw [← hv]
      split
      · exact ⟨fun lp => by positivity, fun lq => by norm_num at *; linarith⟩
      · exact ⟨fun lp => Real.rpow_pos_of_pos lp _, fun lq => Real.rpow_lt_one l0 lq (by norm_num)⟩
    · rw [(GammaPreset.eval_uhdtv l0 l1).1, fin.injEq] at hv
      rw [← hv]
      split
      · exact ⟨fun lp => by positivity, fun lq => by norm_num at *; linarith⟩
      · exact ⟨fun lp => by positivity, fun lq => Real.rpow_lt_one (by positivity) (by norm_num; linarith) (by norm_num)⟩

end

omit [ExactModel] in
theorem clip_mem (x : ℝ) : 0 ≤ max (min x 1) 0 ∧ max (min x 1) 0 ≤ 1 := ⟨le_max_right _ _, max_le (min_le_right _ _) zero_le_one⟩

/-- XYZ → RGB_DEEP for arbitrary linear channels: they are limited to 0 … 1 before the curve is applied. -/
theorem back_clipped (w : World) (s m : Nat) (hm : (w.spaces s).gamma = some m) (al : Fl) {x y z r g b : ℝ} {l : Fin 3 → ℝ}
    (hI : (w.spaces s).inverse.mulVec [fin x, fin y, fin z] = ok [fin (l 0), fin (l 1), fin (l 2)])
    (e1 : (w.gammas m).correct w.parts (fin (max (min (l 0) 1) 0)) = fin r) (e2 : (w.gammas m).correct w.parts (fin (max (min (l 1) 1) 0)) = fin g)
    (e3 : (w.gammas m).correct w.parts (fin (max (min (l 2) 1) 0)) = fin b) (r1 : 0 ≤ r ∧ r ≤ 1) (r2 : 0 ≤ g ∧ g ≤ 1) (r3 : 0 ≤ b ∧ b ≤ 1) :
    Leaf.xyz_to_rgb_deep w (obj .xyz x y z al (some s)) = ok (obj .rgbDeep r g b al (some s)) := by
  simp only [Leaf.xyz_to_rgb_deep, obj_space, World.space, ok_bind]
  rw [show (obj .xyz x y z al (some s)).comps = [fin x, fin y, fin z] from rfl, hI]
  simp only [ok_bind, Mat.vget, List.getElem?_cons_zero, List.getElem?_cons_succ, obj_alpha _ _ _ _ _ _ (rfl : Color.scalesAlpha .xyz = false), Color.construct_rgbDeep]
  have hmk : Color.mkRgbDeep (fin (l 0)) (fin (l 1)) (fin (l 2)) al (some s) = obj .rgbDeep (max (min (l 0) 1) 0) (max (min (l 1) 1) 0) (max (min (l 2) 1) 0) al (some s) := by
    simp only [Color.mkRgbDeep, obj, one_def, zero_def, Color.clamp_fin, Color.maxOf, Color.minOf]
  rw [hmk]
  obtain ⟨h1, h2, h3⟩ := (⟨clip_mem (l 0), clip_mem (l 1), clip_mem (l 2)⟩ : _ ∧ _ ∧ _)
  generalize max (min (l 0) 1) 0 = lr at *
  generalize max (min (l 1) 1) 0 = lg at *
  generalize max (min (l 2) 1) 0 = lb at *
  obtain ⟨s1, s2, s3⟩ : (obj .rgbDeep lr lg lb al (some s)).setChannel 0 (fin lr) = ok (obj .rgbDeep lr lg lb al (some s)) ∧
      (obj .rgbDeep lr lg lb al (some s)).setChannel 1 (fin lg) = ok (obj .rgbDeep lr lg lb al (some s)) ∧
      (obj .rgbDeep lr lg lb al (some s)).setChannel 2 (fin lb) = ok (obj .rgbDeep lr lg lb al (some s)) := by
    simp [obj, Color.setChannel, Color.setComponent, Color.setComponentLim, Color.maxOf, Color.minOf, Color.clamp_fin, h1, h2, h3]
  simp only [obj_0, obj_1, obj_2, ok_bind, clampFloat_unit h1.1 h1.2, clampFloat_unit h2.1 h2.2, clampFloat_unit h3.1 h3.2, s1, s2, s3]
  simp only [Leaf.forwardGamma, obj_space, World.space, ok_bind, World.gamma, hm]
  rw [applyGamma_unit _ e1 e2 e3 r1 r2 r3]

/-- XYZ → LAB → XYZ when a or b may exceed its limits: the colour that comes back has the same Y, and the X and Z whose a and b are the limited ones. -/
theorem lab_clipped (w : World) (s : Nat) {x y z x' z' : ℝ} (wx wy wz : ℝ) (hw : HasWhite w (some s) wx wy wz) (px : 0 < wx) (py : 0 < wy) (pz : 0 < wz) {a : ℝ} (a0 : 0 ≤ a) (a1 : a ≤ 1)
    (x0 : 0 ≤ x) (x1 : x ≤ 100) (y0 : 0 ≤ y) (y1 : y ≤ 100) (z0 : 0 ≤ z) (z1 : z ≤ 100) (x0' : 0 ≤ x') (x1' : x' ≤ 100) (z0' : 0 ≤ z') (z1' : z' ≤ 100) (hL : 116 * labF (y / wy) - 16 ≤ 100)
    (hA : max (min (500 * (labF (x / wx) - labF (y / wy))) 128) (-128) = 500 * (labF (x' / wx) - labF (y / wy)))
    (hB : max (min (200 * (labF (y / wy) - labF (z / wz))) 128) (-128) = 200 * (labF (y / wy) - labF (z' / wz))) :
    Leaf.xyz_to_lab w (obj .xyz x y z (fin a) (some s)) >>= Leaf.lab_to_xyz w = ok (obj .xyz x' y z' (fin a) (some s)) := by
  have lim : ∀ v : ℝ, |max (min v 128) (-128)| ≤ 128 := fun v => abs_le.mpr ⟨le_max_right _ _, max_le (min_le_right _ _) (by norm_num)⟩
  obtain ⟨-, h2⟩ := lab_vals w (obj .xyz x' y z' (fin a) (some s)) x' y z' ⟨⟨rfl, rfl, rfl, rfl, rfl⟩, rfl, x0', x1', y0, y1, z0', z1'⟩ wx wy wz hw px py pz a rfl a0 a1 hL
    (hA ▸ lim _) (hB ▸ lim _)
  obtain ⟨s', q, hs, hq, ht⟩ := hw
  cases hs
  have X0 : 0 ≤ x / wx := by positivity
  have Y0 : 0 ≤ y / wy := by positivity
  have Z0 : 0 ≤ z / wz := by positivity
  have hal : Color.clamp (fin a) 1 0 = fin a := clamp01 a0 a1
  have hL0 : 0 ≤ 116 * labF (y / wy) - 16 := by rcases labF_cases Y0 with hh | hh <;> linarith [hh.1]
  have cl : Color.clamp (fin (116 * labF (y / wy) - 16)) 100 0 = fin (116 * labF (y / wy) - 16) := clamp100 hL0 hL
  have c128 : ∀ v : ℝ, Color.clamp (fin v) 128 (-128) = fin (max (min v 128) (-128)) := by
    intro v
    have : (-128 : Fl) = fin (-128) := by simp
    rw [this]
    simp [Color.clamp_fin]
  have h1 : Leaf.xyz_to_lab w (obj .xyz x y z (fin a) (some s)) =
      ok (obj .lab (116 * labF (y / wy) - 16) (500 * (labF (x' / wx) - labF (y / wy))) (200 * (labF (y / wy) - labF (z' / wz))) (fin a) (some s)) := by
    simp only [Leaf.xyz_to_lab, obj_0, obj_1, obj_2, obj_space, obj_malpha, obj_alpha _ _ _ _ _ _ (rfl : Color.scalesAlpha .xyz = false), ok_bind, World.space, World.white, hq, ht,
      Color.construct_lab]
    rw [div_exact _ _ px.ne', div_exact _ _ py.ne', div_exact _ _ pz.ne', xyzToLab_eq X0, xyzToLab_eq Y0, xyzToLab_eq Z0]
    simp only [lit_def, mul_exact, sub_exact, Color.mkLab, Color.setAlpha, Color.scalesAlpha, Bool.false_eq_true, if_false, hal]
    have e1 := c128 (500 * (labF (x / wx) - labF (y / wy)))
    have e2 := c128 (200 * (labF (y / wy) - labF (z / wz)))
    rw [hA] at e1
    rw [hB] at e2
    simp only [lit_def] at cl e1 e2
    rw [cl, e1, e2]
    simp [obj, Color.maxOf, Color.minOf]
  rw [h1, ok_bind]
  exact h2

omit [FloatModel] [ExactModel] in
theorem solve_first (P : Matrix (Fin 3) (Fin 3) ℝ) (m d : Fin 3 → ℝ) (h : ∀ i, P i 0 * m 0 + P i 1 * m 1 + P i 2 * m 2 = d i) :
    P.det * m 0 = (P 1 1 * P 2 2 - P 1 2 * P 2 1) * d 0 + (P 0 2 * P 2 1 - P 0 1 * P 2 2) * d 1 + (P 0 1 * P 1 2 - P 0 2 * P 1 1) * d 2 := by
  rw [Matrix.det_fin_three]
  linear_combination (P 1 1 * P 2 2 - P 1 2 * P 2 1) * h 0 + (P 0 2 * P 2 1 - P 0 1 * P 2 2) * h 1 + (P 0 1 * P 1 2 - P 0 2 * P 1 1) * h 2

omit [FloatModel] [ExactModel] in
theorem solve_last (P : Matrix (Fin 3) (Fin 3) ℝ) (m d : Fin 3 → ℝ) (h : ∀ i, P i 0 * m 0 + P i 1 * m 1 + P i 2 * m 2 = d i) :
    P.det * m 2 = (P 1 0 * P 2 1 - P 1 1 * P 2 0) * d 0 + (P 0 1 * P 2 0 - P 0 0 * P 2 1) * d 1 + (P 0 0 * P 1 1 - P 0 1 * P 1 0) * d 2 := by
  rw [Matrix.det_fin_three]
  linear_combination (P 1 0 * P 2 1 - P 1 1 * P 2 0) * h 0 + (P 0 1 * P 2 0 - P 0 0 * P 2 1) * h 1 + (P 0 0 * P 1 1 - P 0 1 * P 1 0) * h 2

/-- The trip through LAB of an RGB colour whose a or b may exceed its limits. -/
theorem clipped_trip [StdSort] (p : SpacePreset) (hp : p ≠ .cieRGB) (gp : GammaPreset) (w : World) (s : Nat) (hw : Made w s p gp) (k : Fin 3 → ℝ)
    (hk : (presetPrimaries p).mulVec k = presetWhite p) (hk0 : ∀ i, 0 < k i) (c : Color) (n : Fin 3 → ℝ) (hn : ∀ i, n i = 0 ∨ n i = 1) (a : ℝ) (hs : c.space = some s)
    (h : Clean gp c (n 0) (n 1) (n 2) a) (X : Fin 3 → ℝ)
    (hX : ∀ i, X i = presetPrimaries p i 0 * k 0 * n 0 + presetPrimaries p i 1 * k 1 * n 1 + presetPrimaries p i 2 * k 2 * n 2) (x' z' : ℝ) (x0' : 0 ≤ x') (x1' : x' ≤ 100) (z0' : 0 ≤ z')
    (z1' : z' ≤ 100) (hL : labF (X 1 / presetWhite p 1) ≤ 1)
    (hA : max (min (500 * (labF (X 0 / presetWhite p 0) - labF (X 1 / presetWhite p 1))) 128) (-128) = 500 * (labF (x' / presetWhite p 0) - labF (X 1 / presetWhite p 1)))
    (hB : max (min (200 * (labF (X 1 / presetWhite p 1) - labF (X 2 / presetWhite p 2))) 128) (-128) = 200 * (labF (X 1 / presetWhite p 1) - labF (z' / presetWhite p 2))) :
    ∃ (l : Fin 3 → ℝ) (r g b : ℝ), Trip w c .lab .rgbDeep (obj .rgbDeep r g b c.malpha (some s)) ∧
      (∀ i, presetPrimaries p i 0 * (k 0 * (l 0 - n 0)) + presetPrimaries p i 1 * (k 1 * (l 1 - n 1)) + presetPrimaries p i 2 * (k 2 * (l 2 - n 2)) = ![x' - X 0, 0, z' - X 2] i) ∧
      (0 < l 0 → 0 < r) ∧ (0 < l 2 → 0 < b) ∧ (l 2 < 1 → b < 1) := by
  obtain ⟨m, hm, hc⟩ := hw.curves
  have unit : ∀ v, v = 0 ∨ v = 1 → (w.gammas m).inverse w.parts (fin v) = fin v ∧ (w.gammas m).correct w.parts (fin v) = fin v := by
    obtain ⟨g, hg, ⟨c0, c1, -⟩, ⟨i0, i1, -⟩⟩ := C29_ends gp (fun _ => ⟨none, 1⟩) 0
    obtain ⟨g', hg', he⟩ := preset_curves gp (fun _ => ⟨none, 1⟩) 0
    rw [hg, ok_inj] at hg'
    subst hg'
    rw [(he _).1] at c0 c1
    rw [(he _).2] at i0 i1
    rintro v (rfl | rfl)
    · exact ⟨by rw [(hc _).2, i0], by rw [(hc _).1, c0]⟩
    · exact ⟨by rw [(hc _).2, i1], by rw [(hc _).1, c1]⟩
  have n01 : ∀ i, 0 ≤ n i ∧ n i ≤ 1 := fun i => by rcases hn i with e | e <;> rw [e] <;> norm_num
  obtain ⟨l, -, hl, X', hX', hX01, h1, -⟩ := rgb_xyz_forms w c (n 0) (n 1) (n 2) h.rgb s m hs hm _ _ _ hw.reach hw.regular (preset_nonneg p) hk hk0 (preset_white_le p) (by
    intro v hv
    simp only [List.mem_cons, List.not_mem_nil, or_false] at hv
    rcases hv with rfl | rfl | rfl
    · exact ⟨_, (n01 0).1, (n01 0).2, unit _ (hn 0)⟩
    · exact ⟨_, (n01 1).1, (n01 1).2, unit _ (hn 1)⟩
    · exact ⟨_, (n01 2).1, (n01 2).2, unit _ (hn 2)⟩)
  rw [(unit _ (hn 0)).1, (unit _ (hn 1)).1, (unit _ (hn 2)).1] at hl
  simp only [fin.injEq] at hl
  have eX : X' = X := by ext i; rw [hX, hX', ← hl.1, ← hl.2.1, ← hl.2.2]
  subst eX
  have h2 := lab_clipped w s _ _ _ hw.white (white_pos p 0) (white_pos p 1) (white_pos p 2) h.a0 h.a1 (hX01 0).1 (hX01 0).2 (hX01 1).1 (hX01 1).2 (hX01 2).1 (hX01 2).2
    x0' x1' z0' z1' (by linarith) hA hB
  obtain ⟨⟨M, N, hM, hN, hMN, -⟩, -⟩ := C32_inverse _ _ hw.reach _ _ _ hw.regular hk (fun i => (hk0 i).ne')
  have hI := Mat.mulVec_three (f := fin) Mat.emb_fin N ![x', X' 1, z']
  rw [← hN] at hI
  have hM' : ∀ v : Fin 3 → ℝ, ∀ i, M.mulVec v i = presetPrimaries p i 0 * k 0 * v 0 + presetPrimaries p i 1 * k 1 * v 1 + presetPrimaries p i 2 * k 2 * v 2 := by
    have hkw : (presetPrimaries p)⁻¹.mulVec (presetWhite p) = k := by
      rw [← hk, Matrix.mulVec_mulVec, Matrix.nonsing_inv_mul _ (isUnit_iff_ne_zero.mpr hw.regular.det), Matrix.one_mulVec]
    intro v
    have t1 := Mat.mulVec_three (f := fin) Mat.emb_fin M v
    have t2 := Mat.mulVec_three (f := fin) Mat.emb_fin (SpaceDef.idealMat (presetPrimaries p) (presetWhite p)) v
    rw [← hM] at t1
    rw [← (space_inv _ _ hw.reach _ _ hw.regular).1, t1, ok_inj] at t2
    simp only [List.cons.injEq, fin.injEq, and_true] at t2
    have e : M.mulVec v = (SpaceDef.idealMat (presetPrimaries p) (presetWhite p)).mulVec v := by
      ext i; fin_cases i
      · exact t2.1
      · exact t2.2.1
      · exact t2.2.2
    intro i
    rw [e, SpaceDef.idealMat, hkw]
    simp [Matrix.mulVec, dotProduct, Fin.sum_univ_three, Matrix.mul_diagonal]
  have back : M.mulVec (N.mulVec ![x', X' 1, z']) = ![x', X' 1, z'] := by rw [Matrix.mulVec_mulVec, hMN, Matrix.one_mulVec]
  generalize N.mulVec ![x', X' 1, z'] = l' at hI back
  obtain ⟨r, er, r0, r1, rp, -⟩ := curve_strict gp (clip_mem (l' 0)).1 (clip_mem (l' 0)).2
  obtain ⟨g, eg, g0, g1, -, -⟩ := curve_strict gp (clip_mem (l' 1)).1 (clip_mem (l' 1)).2
  obtain ⟨b, eb, b0, b1, bp, bq⟩ := curve_strict gp (clip_mem (l' 2)).1 (clip_mem (l' 2)).2
  have h3 : Leaf.xyz_to_rgb_deep w (obj .xyz x' (X' 1) z' (fin a) (some s)) = _ := back_clipped w s m hm (fin a) (l := l') hI (by rw [(hc _).1, er]) (by rw [(hc _).1, eg]) (by rw [(hc _).1, eb]) ⟨r0, r1⟩ ⟨g0, g1⟩ ⟨b0, b1⟩
  refine ⟨l', r, g, b, ?_, ?_, fun hp => rp (lt_max_of_lt_left (lt_min hp one_pos)), fun hp => bp (lt_max_of_lt_left (lt_min hp one_pos)), fun hq => bq (max_lt (lt_of_le_of_lt (min_le_left _ _) hq) one_pos)⟩
  · cases e : Leaf.xyz_to_lab w (obj .xyz (X' 0) (X' 1) (X' 2) (fin a) (some s)) with
    | ok d =>
      rw [e, ok_bind] at h2
      refine trip_of (s := .rgbDeep) (d := d) (by decide) (by decide) (by decide) h.rgb.col ?_ ?_
      · change Val.rgb_deep_to_xyz w c >>= Leaf.xyz_to_lab w = _
        rw [h1, ok_bind, h.alpha, hs, e]
      · change Leaf.lab_to_xyz w d >>= Leaf.xyz_to_rgb_deep w = _
        rw [h2, ok_bind, h3, h.alpha]
    | throw => rw [e] at h2; exact absurd h2 (by simp [Bind.bind, Outcome.bind])
    | ub => rw [e] at h2; exact absurd h2 (by simp [Bind.bind, Outcome.bind])
  · intro i
    have e1 := congrFun back i
    rw [hM'] at e1
    have e2 := hX i
    fin_cases i <;> simp at e1 e2 ⊢ <;> linarith

omit [FloatModel] [ExactModel] in
theorem labF_le {t S : ℝ} (h0 : 0 ≤ t) (hS : 6 / 29 ≤ S) (h : t ≤ S ^ 3) : labF t ≤ S := by
  rcases labF_cases h0 with ⟨h1, h2, -⟩ | ⟨-, h2, -⟩
  · by_contra hh
    push Not at hh
    have := pow_lt_pow_left₀ hh (by linarith) (n := 3) (by norm_num)
    linarith
  · linarith

omit [FloatModel] [ExactModel] in
theorem le_labF {t s : ℝ} (h0 : 0 ≤ s) (h : s ^ 3 ≤ t) : s ≤ labF t := by
  have t0 : 0 ≤ t := (pow_nonneg h0 3).trans h
  have u3 : (t ^ (1 / 3 : ℝ)) ^ 3 = t := by rw [← Real.rpow_natCast, ← Real.rpow_mul t0]; norm_num
  have hu := cube_le_labF (Real.rpow_nonneg t0 (1 / 3 : ℝ))
  rw [u3] at hu
  refine le_trans ?_ hu
  by_contra hh
  push Not at hh
  have := pow_lt_pow_left₀ hh (Real.rpow_nonneg t0 _) (n := 3) (by norm_num)
  linarith

omit [FloatModel] [ExactModel] in
/-- Above the knee `f` is the cube root. -/
theorem labF_cube {v : ℝ} (h : 6 / 29 < v) : labF (v ^ 3) = v := by
  refine le_antisymm (labF_le (by positivity) h.le le_rfl) (cube_le_labF (by linarith))

omit [FloatModel] [ExactModel] in
theorem curved_zero (gp : GammaPreset) : Curved gp 0 := by cases gp <;> norm_num [Curved]

omit [FloatModel] [ExactModel] in
theorem curved_one (gp : GammaPreset) : Curved gp 1 := by cases gp <;> norm_num [Curved]

/-- A colour without red whose a is below -128 comes back with some red. -/
theorem loses_red [StdSort] (p : SpacePreset) (hp : p ≠ .cieRGB) (gp : GammaPreset) (w : World) (s : Nat) (hw : Made w s p gp) (k : Fin 3 → ℝ)
    (hk : (presetPrimaries p).mulVec k = presetWhite p) (hk0 : ∀ i, 0 < k i) (e : ℝ) (he : e = 0 ∨ e = 1) (a : ℝ) (a0 : 0 ≤ a) (a1 : a ≤ 1)
    (hcof : 0 < presetPrimaries p 1 1 * presetPrimaries p 2 2 - presetPrimaries p 1 2 * presetPrimaries p 2 1) (S t t' T T' : ℝ)
    (bx : presetPrimaries p 0 1 * k 1 + presetPrimaries p 0 2 * k 2 * e ≤ S ^ 3 * presetWhite p 0)
    (by0 : t ^ 3 * presetWhite p 1 ≤ presetPrimaries p 1 1 * k 1 + presetPrimaries p 1 2 * k 2 * e)
    (by1 : presetPrimaries p 1 1 * k 1 + presetPrimaries p 1 2 * k 2 * e ≤ t' ^ 3 * presetWhite p 1)
    (bz0 : T ^ 3 * presetWhite p 2 ≤ presetPrimaries p 2 1 * k 1 + presetPrimaries p 2 2 * k 2 * e)
    (bz1 : presetPrimaries p 2 1 * k 1 + presetPrimaries p 2 2 * k 2 * e ≤ T' ^ 3 * presetWhite p 2)
    (i1 : S < t - 0.256) (i2 : 6 / 29 ≤ S) (i3 : t' ≤ 1) (i4 : t' - T ≤ 0.64) (i5 : T' - t ≤ 0.64) (i6 : 0 ≤ T) (i7 : 6 / 29 ≤ T') (i8 : 6 / 29 ≤ t') :
    ∃ r g b, Trip w (rgbOf 0 1 e (fin a) (some s)) .lab .rgbDeep (rgbOf r g b (fin a) (some s)) ∧ 0 < r := by
  have P0 := preset_nonneg p
  have W := white_pos p
  have e01 : 0 ≤ e ∧ e ≤ 1 := by rcases he with rfl | rfl <;> norm_num
  set X : Fin 3 → ℝ := fun i => presetPrimaries p i 0 * k 0 * 0 + presetPrimaries p i 1 * k 1 * 1 + presetPrimaries p i 2 * k 2 * e with hX
  have X0 : ∀ i, 0 ≤ X i := by
    intro i
    have := P0 i 1; have := P0 i 2; have := (hk0 1).le; have := (hk0 2).le; have := e01.1
    simp only [hX, mul_zero, zero_add, mul_one]
    positivity
  have eX : ∀ i, presetPrimaries p i 1 * k 1 + presetPrimaries p i 2 * k 2 * e = X i := fun i => by simp only [hX]; ring
  rw [eX] at bx by0 by1 bz0 bz1
  have q0 : ∀ i, 0 ≤ X i / presetWhite p i := fun i => div_nonneg (X0 i) (W i).le
  have fx : labF (X 0 / presetWhite p 0) ≤ S := labF_le (q0 0) i2 (by rwa [div_le_iff₀ (W 0)])
  have fy : t ≤ labF (X 1 / presetWhite p 1) := le_labF (by linarith) (by rwa [le_div_iff₀ (W 1)])
  have fy' : labF (X 1 / presetWhite p 1) ≤ t' := labF_le (q0 1) i8 (by rwa [div_le_iff₀ (W 1)])
  have fz : T ≤ labF (X 2 / presetWhite p 2) := le_labF i6 (by rwa [le_div_iff₀ (W 2)])
  have fz' : labF (X 2 / presetWhite p 2) ≤ T' := labF_le (q0 2) i7 (by rwa [div_le_iff₀ (W 2)])
  have hz100 : X 2 ≤ 100 := by
    have u := congrFun hk 2
    simp only [Matrix.mulVec, dotProduct, Fin.sum_univ_three] at u
    have := mul_nonneg (P0 2 0) (hk0 0).le
    have := mul_nonneg (P0 2 1) (hk0 1).le
    have := mul_nonneg (P0 2 2) (hk0 2).le
    have := preset_white_le p 2
    rw [← eX]
    nlinarith
  have w100 := preset_white_le p 0
  have Wx := W 0
  generalize hF : labF (X 1 / presetWhite p 1) = F at fy fy'
  have hc : (F - 0.256) ^ 3 ≤ 1 := pow_le_one₀ (by linarith) (by linarith)
  have c0 : 0 ≤ (F - 0.256) ^ 3 := pow_nonneg (by linarith) 3
  have hx' : (F - 0.256) ^ 3 * presetWhite p 0 / presetWhite p 0 = (F - 0.256) ^ 3 := mul_div_cancel_right₀ _ Wx.ne'
  have grow : X 0 < (F - 0.256) ^ 3 * presetWhite p 0 := by
    have : S ^ 3 < (F - 0.256) ^ 3 := pow_lt_pow_left₀ (by linarith) (by linarith) (by norm_num)
    nlinarith
  obtain ⟨l, r, g, b, h1, h2, h3, -, -⟩ := clipped_trip p hp gp w s hw k hk hk0 (rgbOf 0 1 e (fin a) (some s)) ![0, 1, e]
    (by intro i; fin_cases i <;> simp [he]) a rfl
    ⟨isRgb_rgbOf _ _ (by simpa using e01), curved_zero gp, curved_one gp, by rcases he with rfl | rfl; exacts [curved_zero gp, curved_one gp], rfl, a0, a1⟩
    X (fun i => rfl) ((F - 0.256) ^ 3 * presetWhite p 0) (X 2) (by positivity) (by nlinarith) (X0 2) hz100 (by rw [hF]; linarith)
    (by rw [hF, hx', labF_cube (by linarith), min_eq_left (by linarith), max_eq_right (by linarith)]; ring)
    (by rw [hF, min_eq_left (by linarith), max_eq_left (by linarith)])
  refine ⟨r, g, b, h1, h3 ?_⟩
  have hd := preset_det p
  have h4 := solve_first _ (fun i => k i * (l i - ![0, 1, e] i)) _ h2
  simp only [Matrix.cons_val_zero, Matrix.cons_val_one, Matrix.cons_val, mul_zero, add_zero, sub_zero, sub_self] at h4
  have h5 : 0 < (presetPrimaries p).det * (k 0 * l 0) := by
    rw [h4]; exact mul_pos hcof (by linarith)
  exact (mul_pos_iff_of_pos_left (hk0 0)).mp ((mul_pos_iff_of_pos_left hd).mp h5)

/-- A blue whose a is above 128 and whose b is below -128 comes back darker. -/
theorem loses_blue [StdSort] (p : SpacePreset) (hp : p ≠ .cieRGB) (gp : GammaPreset) (w : World) (s : Nat) (hw : Made w s p gp) (k : Fin 3 → ℝ)
    (hk : (presetPrimaries p).mulVec k = presetWhite p) (hk0 : ∀ i, 0 < k i) (a : ℝ) (a0 : 0 ≤ a) (a1 : a ≤ 1)
    (hcof : 0 ≤ presetPrimaries p 1 0 * presetPrimaries p 2 1 - presetPrimaries p 1 1 * presetPrimaries p 2 0)
    (hcof' : 0 < presetPrimaries p 0 0 * presetPrimaries p 1 1 - presetPrimaries p 0 1 * presetPrimaries p 1 0) (S t' T : ℝ)
    (bx : S ^ 3 * presetWhite p 0 ≤ presetPrimaries p 0 2 * k 2) (by1 : presetPrimaries p 1 2 * k 2 ≤ t' ^ 3 * presetWhite p 1) (bz : T ^ 3 * presetWhite p 2 ≤ presetPrimaries p 2 2 * k 2)
    (i1 : t' + 0.256 < S) (i2 : 6 / 29 ≤ t') (i3 : t' + 0.64 < T) (i4 : T ≤ 1) :
    ∃ r g b, Trip w (rgbOf 0 0 1 (fin a) (some s)) .lab .rgbDeep (rgbOf r g b (fin a) (some s)) ∧ b < 1 := by
  have P0 := preset_nonneg p
  have W := white_pos p
  set X : Fin 3 → ℝ := fun i => presetPrimaries p i 0 * k 0 * 0 + presetPrimaries p i 1 * k 1 * 0 + presetPrimaries p i 2 * k 2 * 1 with hX
  have eX : ∀ i, presetPrimaries p i 2 * k 2 = X i := fun i => by simp only [hX]; ring
  have X0 : ∀ i, 0 ≤ X i := fun i => by rw [← eX]; exact mul_nonneg (P0 i 2) (hk0 2).le
  rw [eX] at bx by1 bz
  have q0 : ∀ i, 0 ≤ X i / presetWhite p i := fun i => div_nonneg (X0 i) (W i).le
  have fx : S ≤ labF (X 0 / presetWhite p 0) := le_labF (by linarith) (by rwa [le_div_iff₀ (W 0)])
  have fy' : labF (X 1 / presetWhite p 1) ≤ t' := labF_le (q0 1) i2 (by rwa [div_le_iff₀ (W 1)])
  have fy : 4 / 29 ≤ labF (X 1 / presetWhite p 1) := by rcases labF_cases (q0 1) with hh | hh <;> linarith [hh.1]
  have fz : T ≤ labF (X 2 / presetWhite p 2) := le_labF (by linarith) (by rwa [le_div_iff₀ (W 2)])
  have w100 := preset_white_le p
  generalize hF : labF (X 1 / presetWhite p 1) = F at fy fy'
  have cube : ∀ v : ℝ, 6 / 29 < v → v ≤ 1 → ∀ i, 0 ≤ v ^ 3 * presetWhite p i ∧ v ^ 3 * presetWhite p i ≤ 100 ∧ labF (v ^ 3 * presetWhite p i / presetWhite p i) = v := by
    intro v v0 v1 i
    have h0 : 0 ≤ v ^ 3 := pow_nonneg (by linarith) 3
    have h1 : v ^ 3 ≤ 1 := pow_le_one₀ (by linarith) v1
    refine ⟨mul_nonneg h0 (W i).le, by nlinarith [W i, w100 i], ?_⟩
    rw [mul_div_cancel_right₀ _ (W i).ne', labF_cube v0]
  obtain ⟨x0, x1, ex⟩ := cube (F + 0.256) (by linarith) (by linarith) 0
  obtain ⟨z0, z1, ez⟩ := cube (F + 0.64) (by linarith) (by linarith) 2
  have dx : (F + 0.256) ^ 3 * presetWhite p 0 < X 0 := by
    have : (F + 0.256) ^ 3 < S ^ 3 := pow_lt_pow_left₀ (by linarith) (by linarith) (by norm_num)
    nlinarith [W 0]
  have dz : (F + 0.64) ^ 3 * presetWhite p 2 < X 2 := by
    have : (F + 0.64) ^ 3 < T ^ 3 := pow_lt_pow_left₀ (by linarith) (by linarith) (by norm_num)
    nlinarith [W 2]
  obtain ⟨l, r, g, b, h1, h2, -, -, h3⟩ := clipped_trip p hp gp w s hw k hk hk0 (rgbOf 0 0 1 (fin a) (some s)) ![0, 0, 1] (by intro i; fin_cases i <;> simp) a rfl
    ⟨isRgb_rgbOf _ _ (by norm_num), curved_zero gp, curved_zero gp, curved_one gp, rfl, a0, a1⟩
    X (fun i => rfl) _ _ x0 x1 z0 z1 (by rw [hF]; linarith)
    (by rw [hF, ex, min_eq_right (by linarith), max_eq_left (by norm_num)]; ring)
    (by rw [hF, ez, min_eq_left (by linarith), max_eq_right (by linarith)]; ring)
  refine ⟨r, g, b, h1, h3 ?_⟩
  have hd := preset_det p
  have h4 := solve_last _ (fun i => k i * (l i - ![0, 0, 1] i)) _ h2
  simp only [Matrix.cons_val_zero, Matrix.cons_val_one, Matrix.cons_val, mul_zero, add_zero, sub_zero] at h4
  have h5 : (presetPrimaries p).det * (k 2 * (l 2 - 1)) < 0 := by
    rw [h4]; nlinarith
  by_contra hh
  push Not at hh
  have : 0 ≤ (presetPrimaries p).det * (k 2 * (l 2 - 1)) := mul_nonneg hd.le (mul_nonneg (hk0 2).le (by linarith))
  linarith

/-- A green whose a is below -128 and whose b is above 128 comes back with some blue. -/
theorem loses_green [StdSort] (p : SpacePreset) (hp : p ≠ .cieRGB) (gp : GammaPreset) (w : World) (s : Nat) (hw : Made w s p gp) (k : Fin 3 → ℝ)
    (hk : (presetPrimaries p).mulVec k = presetWhite p) (hk0 : ∀ i, 0 < k i) (a : ℝ) (a0 : 0 ≤ a) (a1 : a ≤ 1)
    (hcof : 0 ≤ presetPrimaries p 1 0 * presetPrimaries p 2 1 - presetPrimaries p 1 1 * presetPrimaries p 2 0)
    (hcof' : 0 < presetPrimaries p 0 0 * presetPrimaries p 1 1 - presetPrimaries p 0 1 * presetPrimaries p 1 0) (S t t' T : ℝ)
    (bx : presetPrimaries p 0 1 * k 1 ≤ S ^ 3 * presetWhite p 0) (by0 : t ^ 3 * presetWhite p 1 ≤ presetPrimaries p 1 1 * k 1)
    (by1 : presetPrimaries p 1 1 * k 1 ≤ t' ^ 3 * presetWhite p 1) (bz : presetPrimaries p 2 1 * k 1 ≤ T ^ 3 * presetWhite p 2)
    (i1 : S < t - 0.256) (i2 : 6 / 29 ≤ S) (i3 : t' ≤ 1) (i4 : T < t - 0.64) (i5 : 6 / 29 ≤ T) :
    ∃ r g b, Trip w (rgbOf 0 1 0 (fin a) (some s)) .lab .rgbDeep (rgbOf r g b (fin a) (some s)) ∧ 0 < b := by
  have P0 := preset_nonneg p
  have W := white_pos p
  set X : Fin 3 → ℝ := fun i => presetPrimaries p i 0 * k 0 * 0 + presetPrimaries p i 1 * k 1 * 1 + presetPrimaries p i 2 * k 2 * 0 with hX
  have eX : ∀ i, presetPrimaries p i 1 * k 1 = X i := fun i => by simp only [hX]; ring
  have X0 : ∀ i, 0 ≤ X i := fun i => by rw [← eX]; exact mul_nonneg (P0 i 1) (hk0 1).le
  rw [eX] at bx by0 by1 bz
  have q0 : ∀ i, 0 ≤ X i / presetWhite p i := fun i => div_nonneg (X0 i) (W i).le
  have fx : labF (X 0 / presetWhite p 0) ≤ S := labF_le (q0 0) i2 (by rwa [div_le_iff₀ (W 0)])
  have fy : t ≤ labF (X 1 / presetWhite p 1) := le_labF (by linarith) (by rwa [le_div_iff₀ (W 1)])
  have ht : t ≤ t' := by
    by_contra hh
    push Not at hh
    have h6 : t' < t := hh
    by_cases t0 : 0 ≤ t'
    · have := pow_lt_pow_left₀ h6 t0 (n := 3) (by norm_num)
      nlinarith [W 1]
    · push Not at t0
      have : t' ^ 3 < 0 := by have := pow_pos (neg_pos.mpr t0) 3; nlinarith
      nlinarith [W 1, X0 1]
  have fy' : labF (X 1 / presetWhite p 1) ≤ t' := labF_le (q0 1) (by linarith) (by rwa [div_le_iff₀ (W 1)])
  have fz : labF (X 2 / presetWhite p 2) ≤ T := labF_le (q0 2) i5 (by rwa [div_le_iff₀ (W 2)])
  have w100 := preset_white_le p
  generalize hF : labF (X 1 / presetWhite p 1) = F at fy fy'
  have cube : ∀ v : ℝ, 6 / 29 < v → v ≤ 1 → ∀ i, 0 ≤ v ^ 3 * presetWhite p i ∧ v ^ 3 * presetWhite p i ≤ 100 ∧ labF (v ^ 3 * presetWhite p i / presetWhite p i) = v := by
    intro v v0 v1 i
    have h0 : 0 ≤ v ^ 3 := pow_nonneg (by linarith) 3
    have h1 : v ^ 3 ≤ 1 := pow_le_one₀ (by linarith) v1
    refine ⟨mul_nonneg h0 (W i).le, by nlinarith [W i, w100 i], ?_⟩
    rw [mul_div_cancel_right₀ _ (W i).ne', labF_cube v0]
  obtain ⟨x0, x1, ex⟩ := cube (F - 0.256) (by linarith) (by linarith) 0
  obtain ⟨z0, z1, ez⟩ := cube (F - 0.64) (by linarith) (by linarith) 2
  have dx : X 0 < (F - 0.256) ^ 3 * presetWhite p 0 := by
    have : S ^ 3 < (F - 0.256) ^ 3 := pow_lt_pow_left₀ (by linarith) (by linarith) (by norm_num)
    nlinarith [W 0]
  have dz : X 2 < (F - 0.64) ^ 3 * presetWhite p 2 := by
    have : T ^ 3 < (F - 0.64) ^ 3 := pow_lt_pow_left₀ (by linarith) (by linarith) (by norm_num)
    nlinarith [W 2]
  obtain ⟨l, r, g, b, h1, h2, -, h3, -⟩ := clipped_trip p hp gp w s hw k hk hk0 (rgbOf 0 1 0 (fin a) (some s)) ![0, 1, 0] (by intro i; fin_cases i <;> simp) a rfl
    ⟨isRgb_rgbOf _ _ (by norm_num), curved_zero gp, curved_one gp, curved_zero gp, rfl, a0, a1⟩
    X (fun i => rfl) _ _ x0 x1 z0 z1 (by rw [hF]; linarith)
    (by rw [hF, ex, min_eq_left (by linarith), max_eq_right (by linarith)]; ring)
    (by rw [hF, ez, min_eq_right (by linarith), max_eq_left (by norm_num)]; ring)
  refine ⟨r, g, b, h1, h3 ?_⟩
  have hd := preset_det p
  have h4 := solve_last _ (fun i => k i * (l i - ![0, 1, 0] i)) _ h2
  simp only [Matrix.cons_val_zero, Matrix.cons_val_one, Matrix.cons_val, mul_zero, add_zero, sub_zero] at h4
  have h5 : 0 < (presetPrimaries p).det * (k 2 * l 2) := by
    rw [h4]
    have := mul_nonneg hcof (sub_pos.mpr dx).le
    have := mul_pos hcof' (sub_pos.mpr dz)
    linarith
  exact (mul_pos_iff_of_pos_left (hk0 2)).mp ((mul_pos_iff_of_pos_left hd).mp h5)

/-- What `loses_red` gives for a preset. -/
def RedLost [StdSort] (p : SpacePreset) (e : ℝ) : Prop := ∀ (gp : GammaPreset) (w : World) (s : Nat), Made w s p gp → ∀ a : ℝ, 0 ≤ a → a ≤ 1 →
  ∃ r g b, Trip w (rgbOf 0 1 e (fin a) (some s)) .lab .rgbDeep (rgbOf r g b (fin a) (some s)) ∧ 0 < r

macro "losing " p:term:max k:term:max e:term:max S:term:max t:term:max t2:term:max T:term:max T2:term:max : tactic => `(tactic| (
  intro gp w s hw a a0 a1
  refine loses_red $p (by decide) gp w s hw $k ?_ ?_ $e (by norm_num) a a0 a1 ?_ $S $t $t2 $T $T2 ?_ ?_ ?_ ?_ ?_ ?_ ?_ ?_ ?_ ?_ ?_ ?_ ?_
  · ext i; fin_cases i <;> simp [Matrix.mulVec, dotProduct, Fin.sum_univ_three, presetPrimaries, presetWhite, ccMat, SpacePreset.primaries, SpacePreset.white, WhitePreset.literals] <;> norm_num
  · intro i; fin_cases i <;> simp
  all_goals (try simp [presetPrimaries, presetWhite, ccMat, SpacePreset.primaries, SpacePreset.white, WhitePreset.literals]) <;> norm_num))

theorem lost_adobeRGB [StdSort] : RedLost .adobeRGB 0 := by losing .adobeRGB ![3404739/3778750, 3339089/3778750, 4740549/3778750] 0 0.581 0.856 0.857 0.401 0.402

theorem lost_oldNTSC [StdSort] : RedLost .oldNTSC 0 := by losing .oldNTSC ![102349/113000, 653547/791000, 1131943/791000] 0 0.562 0.837 0.838 0.382 0.383

theorem lost_uhdtv [StdSort] : RedLost .uhdtv 0 := by losing .uhdtv ![476503987/529666250, 225297758/264833125, 341331082/264833125] 0 0.534 0.878 0.879 0.295 0.296

theorem lost_adobeWideGammutRGB [StdSort] : RedLost .adobeWideGammutRGB 0 := by losing .adobeWideGammutRGB ![1162813621/1193495000, 33519119/38191840, 894983611/954796000] 0 0.472 0.898 0.899 0.397 0.398

theorem lost_rommRGB [StdSort] : RedLost .rommRGB 1 := by losing .rommRGB ![50122225223/46166152500, 12032648137/14204970000, 8251/9633] 1 0.557 0.892 0.893 1 1

theorem lost_betaRGB [StdSort] : RedLost .betaRGB 0 := by losing .betaRGB ![375092440901/384900170000, 42294739609/48112521250, 45018960801/48112521250] 0 0.566 0.872 0.873 0.366 0.367

theorem lost_donRGB4 [StdSort] : RedLost .donRGB4 0 := by losing .donRGB4 ![144983839/156262000, 43915294/48831875, 187936021/195327500] 0 0.586 0.882 0.883 0.279 0.28

theorem lost_ProPhotoRGB [StdSort] : RedLost .ProPhotoRGB 1 := by losing .ProPhotoRGB ![50122225223/46166152500, 12032648137/14204970000, 8251/9633] 1 0.557 0.892 0.893 1 1

theorem lost_cieXYZ [StdSort] : RedLost .cieXYZ 1 := by losing .cieXYZ ![1/10, 1, 1/10] 1 0.207 1 1 1 1

theorem lost_best [StdSort] (gp : GammaPreset) (w : World) (s : Nat) (hw : Made w s .bestRGB gp) (a : ℝ) (a0 : 0 ≤ a) (a1 : a ≤ 1) :
    ∃ r g b, Trip w (rgbOf 0 1 0 (fin a) (some s)) .lab .rgbDeep (rgbOf r g b (fin a) (some s)) ∧ 0 < b := by
  refine loses_green .bestRGB (by decide) gp w s hw ![147390203/171161000, 8142389057/8558050000, 4179534829/4279025000] ?_ ?_ a a0 a1 ?_ ?_ 0.597 0.903 0.904 0.226 ?_ ?_ ?_ ?_ ?_ ?_ ?_ ?_ ?_
  · ext i; fin_cases i <;> simp [Matrix.mulVec, dotProduct, Fin.sum_univ_three, presetPrimaries, presetWhite, ccMat, SpacePreset.primaries, SpacePreset.white, WhitePreset.literals] <;> norm_num
  · intro i; fin_cases i <;> simp
  all_goals (try simp [presetPrimaries, presetWhite, ccMat, SpacePreset.primaries, SpacePreset.white, WhitePreset.literals]) <;> norm_num

theorem lost_ekta [StdSort] (gp : GammaPreset) (w : World) (s : Nat) (hw : Made w s .ektaSpacePS5 gp) (a : ℝ) (a0 : 0 ≤ a) (a1 : a ≤ 1) :
    ∃ r g b, Trip w (rgbOf 0 0 1 (fin a) (some s)) .lab .rgbDeep (rgbOf r g b (fin a) (some s)) ∧ b < 1 := by
  refine loses_blue .ektaSpacePS5 (by decide) gp w s hw ![30896899/36157500, 50617093/48210000, 7998599/9039375] ?_ ?_ a a0 a1 ?_ ?_ 0.465 0.207 0.982 ?_ ?_ ?_ ?_ ?_ ?_ ?_
  · ext i; fin_cases i <;> simp [Matrix.mulVec, dotProduct, Fin.sum_univ_three, presetPrimaries, presetWhite, ccMat, SpacePreset.primaries, SpacePreset.white, WhitePreset.literals] <;> norm_num
  · intro i; fin_cases i <;> simp
  all_goals (try simp [presetPrimaries, presetWhite, ccMat, SpacePreset.primaries, SpacePreset.white, WhitePreset.literals]) <;> norm_num

/-- In cieRGB, with any gamma preset, red becomes black. -/
theorem lost_cie [StdSort] (gp : GammaPreset) (w : World) (s : Nat) (hw : Made w s .cieRGB gp) (a : ℝ) (a0 : 0 ≤ a) (a1 : a ≤ 1) :
    Trip w (rgbOf 1 0 0 (fin a) (some s)) .lab .rgbDeep (rgbOf 0 0 0 (fin a) (some s)) := by
  obtain ⟨m, hm, he⟩ := hw.curves
  obtain ⟨gm, hgm, hgm'⟩ := preset_curves gp (fun _ => ⟨none, 1⟩) 0
  obtain ⟨gm', hg', ⟨c0, -, -⟩, ⟨i0, i1, -⟩⟩ := C29_ends gp (fun _ => ⟨none, 1⟩) 0
  rw [hgm, ok_inj] at hg'
  subst hg'
  rw [(hgm' _).1, ← (he _).1] at c0
  rw [(hgm' _).2, ← (he _).2] at i0 i1
  have hd := preset_det .cieRGB
  have hwt := weights_cramer _ (presetWhite .cieRGB) hd.ne'
  obtain ⟨k, hk, k0, -⟩ := C31_primaries _ _ hw.reach _ _ hw.regular
  have hk' : k = fun i => ((presetPrimaries .cieRGB).updateCol i (presetWhite .cieRGB)).det / (presetPrimaries .cieRGB).det := by
    have u := isUnit_iff_ne_zero.mpr hd.ne'
    have := congrArg (presetPrimaries .cieRGB)⁻¹.mulVec (hk.trans hwt.symm)
    rwa [Matrix.mulVec_mulVec, Matrix.mulVec_mulVec, Matrix.nonsing_inv_mul _ u, Matrix.one_mulVec, Matrix.one_mulVec] at this
  have hv : k 0 < -0.45 := by
    rw [hk']
    simp only
    rw [div_lt_iff₀ hd, Matrix.det_fin_three, Matrix.det_fin_three]
    simp [presetPrimaries, presetWhite, ccMat, SpacePreset.primaries, SpacePreset.white, WhitePreset.literals, Matrix.updateCol_apply]
    norm_num
  obtain ⟨⟨M, N, -, hN, -⟩, -⟩ := C32_inverse _ _ hw.reach _ _ _ hw.regular hwt (fun i => div_ne_zero ((preset_weights .cieRGB).1 i) hd.ne')
  have hzero := Mat.mulVec_three (f := fin) Mat.emb_fin N ![0, 0, 0]
  rw [← hN] at hzero
  have hz : (w.spaces s).inverse.mulVec [fin 0, fin 0, fin 0] = ok [fin 0, fin 0, fin 0] := by
    have e : N.mulVec ![0, 0, 0] = 0 := by
      have : (![0, 0, 0] : Fin 3 → ℝ) = 0 := by ext i; fin_cases i <;> rfl
      rw [this, Matrix.mulVec_zero]
    rw [e] at hzero
    exact hzero
  have h1 : Val.rgb_deep_to_xyz w (rgbOf 1 0 0 (fin a) (some s)) = ok (obj .xyz 0 0 0 (fin a) (some s)) := by
    change Val.rgb_deep_to_xyz w (obj .rgbDeep 1 0 0 (fin a) (some s)) = _
    simp only [Val.rgb_deep_to_xyz, Leaf.inverseGamma, obj_space, World.space, ok_bind, World.gamma, hm]
    rw [applyGamma_unit _ i1 i0 i0 (by norm_num) (by norm_num) (by norm_num)]
    simp only [Leaf.linear_to_xyz, obj_space, World.space, ok_bind]
    rw [show (obj .rgbDeep 1 0 0 (fin a) (some s)).comps = [fin 1, fin 0, fin 0] from rfl]
    simp only [zero_def, one_def] at k0
    rw [k0]
    simp only [ok_bind, Mat.vget, List.getElem?_cons_zero, List.getElem?_cons_succ, obj_alpha _ _ _ _ _ _ (rfl : Color.scalesAlpha .rgbDeep = false), Color.construct_xyz,
      Color.mkXyz]
    have neg : ∀ q : ℝ, q ≤ 0 → Color.clamp (fin q) 100 0 = fin 0 := by
      intro q hq
      simp only [lit_def, zero_def, Color.clamp_fin]
      rw [min_eq_left (by linarith), max_eq_right hq]
    have p0 := preset_nonneg .cieRGB
    rw [neg _ (mul_nonpos_of_nonpos_of_nonneg (by linarith) (p0 0 0)), neg _ (mul_nonpos_of_nonpos_of_nonneg (by linarith) (p0 1 0)),
      neg _ (mul_nonpos_of_nonpos_of_nonneg (by linarith) (p0 2 0))]
    rfl
  have hL : labF 0 ≤ 1 := labF_le le_rfl (by norm_num) (by norm_num)
  have h2 := lab_clipped w s (x := 0) (y := 0) (z := 0) (x' := 0) (z' := 0) _ _ _ hw.white (white_pos .cieRGB 0) (white_pos .cieRGB 1) (white_pos .cieRGB 2) a0 a1 le_rfl (by norm_num) le_rfl (by norm_num) le_rfl
    (by norm_num) le_rfl (by norm_num) le_rfl (by norm_num) (by rw [zero_div]; linarith) (by simp) (by simp)
  have h3 : Leaf.xyz_to_rgb_deep w (obj .xyz 0 0 0 (fin a) (some s)) = _ :=
    back_linear w s m hm (fin a) hz (by norm_num) (by norm_num) (by norm_num) c0 c0 c0 (by norm_num) (by norm_num) (by norm_num)
  cases e : Leaf.xyz_to_lab w (obj .xyz 0 0 0 (fin a) (some s)) with
  | ok d =>
    rw [e, ok_bind] at h2
    refine trip_of (s := .rgbDeep) (d := d) (by decide) (by decide) (by decide) (isRgb_rgbOf _ _ (by norm_num)).col ?_ ?_
    · change Val.rgb_deep_to_xyz w _ >>= Leaf.xyz_to_lab w = _
      rw [h1, ok_bind, e]
    · change Leaf.lab_to_xyz w d >>= Leaf.xyz_to_rgb_deep w = _
      rw [h2, ok_bind, h3]
      rfl
  | throw => rw [e] at h2; exact absurd h2 (by simp [Bind.bind, Outcome.bind])
  | ub => rw [e] at h2; exact absurd h2 (by simp [Bind.bind, Outcome.bind])

omit [ExactModel] in
/-- A trip has one result. -/
theorem trip_det {w : World} {c d e : Color} {t s : ColorType} (h1 : Trip w c t s d) (h2 : Trip w c t s e) : d = e := by
  obtain ⟨q, g, r, g', a1, a2, a3⟩ := h1 ⟨w, [c]⟩ 0 rfl rfl
  obtain ⟨q', k, r', k', b1, b2, b3⟩ := h2 ⟨w, [c]⟩ 0 rfl rfl
  rw [a1] at b1
  simp only [Prod.mk.injEq, ok_inj, Option.some.injEq] at b1
  obtain ⟨rfl, rfl⟩ := b1
  rw [a2] at b2
  simp only [Prod.mk.injEq, ok_inj, Option.some.injEq] at b2
  obtain ⟨rfl, rfl⟩ := b2
  rw [a3] at b3
  exact Option.some.inj b3

/-- **C158** In every other preset colour space, with any gamma preset and at any opacity, one of the six saturated corners of the RGB cube does not survive the trip through LAB. -/
theorem C158_others [StdSort] (p : SpacePreset) (hp : ¬Fits p) (gp : GammaPreset) (w : World) (s : Nat) (hw : Made w s p gp) (a : ℝ) (a0 : 0 ≤ a) (a1 : a ≤ 1) :
    ∃ r g b : ℝ, (r = 0 ∨ r = 1) ∧ (g = 0 ∨ g = 1) ∧ (b = 0 ∨ b = 1) ∧ ∃ c', Trip w (rgbOf r g b (fin a) (some s)) .lab .rgbDeep c' ∧ c' ≠ rgbOf r g b (fin a) (some s) := by
  have red : ∀ {p e}, RedLost p e → Made w s p gp → (e = 0 ∨ e = 1) →
      ∃ r g b : ℝ, (r = 0 ∨ r = 1) ∧ (g = 0 ∨ g = 1) ∧ (b = 0 ∨ b = 1) ∧ ∃ c', Trip w (rgbOf r g b (fin a) (some s)) .lab .rgbDeep c' ∧ c' ≠ rgbOf r g b (fin a) (some s) := by
    intro p e h hw he
    obtain ⟨r, g, b, h1, h2⟩ := h gp w s hw a a0 a1
    refine ⟨0, 1, e, .inl rfl, .inr rfl, he, _, h1, fun hh => ?_⟩
    have := congrArg Color.comps hh
    simp only [rgbOf, List.cons.injEq, fin.injEq] at this
    exact h2.ne' this.1
  cases p
  case adobeRGB => exact red lost_adobeRGB hw (.inl rfl)
  case oldNTSC => exact red lost_oldNTSC hw (.inl rfl)
  case uhdtv => exact red lost_uhdtv hw (.inl rfl)
  case adobeWideGammutRGB => exact red lost_adobeWideGammutRGB hw (.inl rfl)
  case rommRGB => exact red lost_rommRGB hw (.inr rfl)
  case betaRGB => exact red lost_betaRGB hw (.inl rfl)
  case donRGB4 => exact red lost_donRGB4 hw (.inl rfl)
  case ProPhotoRGB => exact red lost_ProPhotoRGB hw (.inr rfl)
  case cieXYZ => exact red lost_cieXYZ hw (.inr rfl)
  case bestRGB =>
    obtain ⟨r, g, b, h1, h2⟩ := lost_best gp w s hw a a0 a1
    refine ⟨0, 1, 0, .inl rfl, .inr rfl, .inl rfl, _, h1, fun hh => ?_⟩
    have := congrArg Color.comps hh
    simp only [rgbOf, List.cons.injEq, fin.injEq] at this
    exact h2.ne' this.2.2.1
  case ektaSpacePS5 =>
    obtain ⟨r, g, b, h1, h2⟩ := lost_ekta gp w s hw a a0 a1
    refine ⟨0, 0, 1, .inl rfl, .inl rfl, .inr rfl, _, h1, fun hh => ?_⟩
    have := congrArg Color.comps hh
    simp only [rgbOf, List.cons.injEq, fin.injEq] at this
    exact h2.ne this.2.2.1
  case cieRGB =>
    refine ⟨1, 0, 0, .inr rfl, .inl rfl, .inl rfl, _, lost_cie gp w s hw a a0 a1, fun hh => ?_⟩
    have := congrArg Color.comps hh
    simp only [rgbOf, List.cons.injEq, fin.injEq] at this
    exact zero_ne_one this.1
  all_goals exact absurd trivial hp

/-- **C158** So for each preset colour space the corners of the RGB cube decide: if they survive the trip through LAB then every colour does whose channels survive the gamma
curves, and this happens in exactly eight of the presets. -/
theorem C158_exactly [StdSort] (p : SpacePreset) (gp : GammaPreset) (w : World) (s : Nat) (hw : Made w s p gp) :
    (Fits p ↔ ∀ r g b : ℝ, (r = 0 ∨ r = 1) → (g = 0 ∨ g = 1) → (b = 0 ∨ b = 1) → Trip w (rgbOf r g b (fin 1) (some s)) .lab .rgbDeep (rgbOf r g b (fin 1) (some s))) ∧
    (Fits p ↔ ∀ (c : Color) (r g b a : ℝ), c.space = some s → Clean gp c r g b a → Trip w c .lab .rgbDeep c) := by
  have ends : ∀ v : ℝ, v = 0 ∨ v = 1 → 0 ≤ v ∧ v ≤ 1 ∧ Curved gp v := by
    rintro v (rfl | rfl)
    · exact ⟨le_rfl, zero_le_one, curved_zero gp⟩
    · exact ⟨zero_le_one, le_rfl, curved_one gp⟩
  have corner : ∀ r g b : ℝ, (r = 0 ∨ r = 1) → (g = 0 ∨ g = 1) → (b = 0 ∨ b = 1) → Clean gp (rgbOf r g b (fin 1) (some s)) r g b 1 := by
    intro r g b hr hg hb
    exact ⟨isRgb_rgbOf _ _ ⟨(ends r hr).1, (ends r hr).2.1, (ends g hg).1, (ends g hg).2.1, (ends b hb).1, (ends b hb).2.1⟩, (ends r hr).2.2, (ends g hg).2.2, (ends b hb).2.2, rfl,
      zero_le_one, le_rfl⟩
  have back : (∀ r g b : ℝ, (r = 0 ∨ r = 1) → (g = 0 ∨ g = 1) → (b = 0 ∨ b = 1) → Trip w (rgbOf r g b (fin 1) (some s)) .lab .rgbDeep (rgbOf r g b (fin 1) (some s))) → Fits p := by
    intro h
    by_contra hp
    obtain ⟨r, g, b, hr, hg, hb, c', h1, h2⟩ := C158_others p hp gp w s hw 1 zero_le_one le_rfl
    exact h2 (trip_det h1 (h r g b hr hg hb))
  exact ⟨⟨fun hp r g b hr hg hb => C158_deep p hp gp w s hw _ r g b 1 rfl (corner r g b hr hg hb), back⟩,
    fun hp c r g b a hs h => C158_deep p hp gp w s hw c r g b a hs h, fun h => back fun r g b hr hg hb => h _ r g b 1 rfl (corner r g b hr hg hb)⟩

/-- Case: an orange in sRGB survives, the pure green of Adobe RGB does not; worlds with these spaces exist. -/
example [StdSort] : (∃ w : World, Trip w (rgbOf 1 0.5 0.25 (fin 0.5) (some 0)) .lab .rgbDeep (rgbOf 1 0.5 0.25 (fin 0.5) (some 0))) ∧
    ∃ (w : World) (c' : Color), Trip w (rgbOf 0 1 0 (fin 0.5) (some 0)) .lab .rgbDeep c' ∧ c' ≠ rgbOf 0 1 0 (fin 0.5) (some 0) := by
  obtain ⟨w, hw⟩ := exists_made .sRGB .sRGB
  obtain ⟨w', hw'⟩ := exists_made .adobeRGB .g2_2
  refine ⟨⟨w, C158_deep .sRGB trivial .sRGB w 0 hw _ 1 0.5 0.25 0.5 rfl ⟨isRgb_rgbOf _ _ (by norm_num), by norm_num [Curved], by norm_num [Curved], by norm_num [Curved], rfl,
    by norm_num, by norm_num⟩⟩, w', ?_⟩
  obtain ⟨r, g, b, h1, h2⟩ := lost_adobeRGB .g2_2 w' 0 hw' 0.5 (by norm_num) (by norm_num)
  refine ⟨_, h1, fun hh => ?_⟩
  have := congrArg Color.comps hh
  simp only [rgbOf, List.cons.injEq, fin.injEq] at this
  exact h2.ne' this.1

/-- Case: an 8-bit colour, and two different colours of one space. -/
example [StdSort] : ∃ w : World, (∀ c, Color.construct .rgbTrue [fin (200 : ℕ), fin (100 : ℕ), fin (50 : ℕ)] (fin (128 : ℕ)) (some 0) = ok c → Trip w c .lab .rgbTrue c) ∧
    ∃ v : ℝ, Measures Distance.cielab_delta_e_cie76 w (rgbOf 1 0.5 0.25 (fin 1) (some 0)) (rgbOf 1 0.5 0.5 (fin 0) (some 0)) (fin v) ∧ 0 < v := by
  obtain ⟨w, hw⟩ := exists_made .dci_p3 .g2_2
  refine ⟨w, fun c hc => C158_true .dci_p3 trivial .g2_2 (by decide) w 0 hw 200 100 50 128 (by norm_num) (by norm_num) (by norm_num) (by norm_num) c hc, ?_⟩
  obtain ⟨v, h1, h2, h3⟩ := C158_distance .dci_p3 trivial .g2_2 w 0 hw _ _ 1 0.5 0.25 1 1 0.5 0.5 0 rfl rfl
    ⟨isRgb_rgbOf _ _ (by norm_num), by norm_num [Curved], by norm_num [Curved], by norm_num [Curved], rfl, by norm_num, by norm_num⟩
    ⟨isRgb_rgbOf _ _ (by norm_num), by norm_num [Curved], by norm_num [Curved], by norm_num [Curved], rfl, by norm_num, by norm_num⟩
  exact ⟨v, h1, lt_of_le_of_ne h2 fun hh => absurd (h3.mp hh.symm).2.2 (by norm_num)⟩

import Verif.Props.Adaptations3

/-!
# Properties C80 and C101: chromatic adaptation between equal white points, colours of every class
-/

open Outcome Fl Prog ObjectSpec ConvSpec CombineSpec BlendSpec FormulaSpec AdaptSpec Matrix

section
variable [FloatModel] [ExactModel]

/-- C80 for every class: adapting to a white point of the same values leaves the XYZ value unchanged up to the error of the stored inverse, and it is converted back to the class. -/
theorem C80_class (q : Method) (hq : q.Admissible) (hq' : ¬ q.Normalises) (h : Heap) (i : Nat) (s : ColorType) (c : Color) (sp u t a : Nat) (hs : Setting h i s c sp u t) (hd : s ≠ .undefined)
    (hl : s ≠ .lchAb ∧ s ≠ .lchUv) (x : Color) (hx : Converts h.world c .xyz x) (X S : Fin 3 → ℝ) (hX : IsXyz x X) (hw : Whites h u t S S)
    (hn : ∀ j, (cone q.matrix).mulVec S j ≠ 0) (hS : S 1 ≠ 0) (hr : ∀ j, 0 ≤ X j ∧ X j ≤ 100) :
    ∃ k r h' z y, q.fn a (some i) (some t) h = (ok (some k), h') ∧ h'.colors[k]? = some r ∧ IsColor s r ∧ IsXyz z y ∧ z.alpha = x.alpha ∧ z.space = some a ∧
      Converts h'.world z s r ∧ ∀ j, |y j - X j| ≤ tol q.matrix * size X := by
  obtain ⟨y, hy, he⟩ := C80_partial q hq ⟨h.world, [x]⟩ 0 x sp u t X S (hs.alone hd hx) hX ⟨hw.source, hw.target⟩ hn hS (fun h => absurd h hq') hr
  obtain ⟨k, r, h', z, h1, h2, h3, h4, h5, h6, h7⟩ := C97_class_values q hq' h i s c sp u t a hs hd hl x hx _ y hy
  exact ⟨k, r, h', z, y, h1, h2, h3, h4, h5, h6, h7, he⟩

/-- C101 for every class, CMCCAT2000: white points that differ only in luminance leave the XYZ value unchanged up to the error of the stored inverse. -/
theorem C101_class (q : Method) (hq : q.Admissible) (hq' : ¬ q.Normalises) (hrel : q.Relative) (h : Heap) (i : Nat) (s : ColorType) (c : Color) (sp u t a : Nat) (hs : Setting h i s c sp u t)
    (hd : s ≠ .undefined) (hl : s ≠ .lchAb ∧ s ≠ .lchUv) (x : Color) (hx : Converts h.world c .xyz x) (X S D : Fin 3 → ℝ) (l : ℝ) (l0 : l ≠ 0) (hsd : S = fun j => l * D j) (hX : IsXyz x X)
    (hw : Whites h u t S D) (hn : ∀ j, (cone q.matrix).mulVec D j ≠ 0) (hD : D 1 ≠ 0) (hr : ∀ j, 0 ≤ X j ∧ X j ≤ 100) :
    ∃ k r h' z y, q.fn a (some i) (some t) h = (ok (some k), h') ∧ h'.colors[k]? = some r ∧ IsColor s r ∧ IsXyz z y ∧ z.alpha = x.alpha ∧ z.space = some a ∧
      Converts h'.world z s r ∧ ∀ j, |y j - X j| ≤ tol q.matrix * size X := by
  obtain ⟨y, hy, he⟩ := C101_partial q hq hrel ⟨h.world, [x]⟩ 0 x sp u t X S D l l0 hsd (hs.alone hd hx) hX ⟨hw.source, hw.target⟩ hn hD (fun h => absurd h hq') hr
  obtain ⟨k, r, h', z, h1, h2, h3, h4, h5, h6, h7⟩ := C97_class_values q hq' h i s c sp u t a hs hd hl x hx _ y hy
  exact ⟨k, r, h', z, y, h1, h2, h3, h4, h5, h6, h7, he⟩

/-- C80 for RGB colours: XYZ scaling to a white point of the same values returns the same channels and opacity, in every colour space and for every channel value that the gamma curve returns.
`L` is the linearised colour, whose XYZ value must be in range. -/
theorem C80_rgb (h : Heap) (i : Nat) (c : Color) (sp u t m a : Nat) (P : Matrix (Fin 3) (Fin 3) ℝ) (S : Fin 3 → ℝ) (hs : RgbSetting h i c sp u t m P S S) (r g b : ℝ) (hc : IsRgb c r g b)
    (L : Fin 3 → ℝ) (hL : ∀ j, 0 ≤ L j ∧ L j ≤ 1) (hr : ∀ j, 0 ≤ mixed P (P⁻¹.mulVec S) L j ∧ mixed P (P⁻¹.mulVec S) L j ≤ 100)
    (i0 : (h.world.gammas m).inverse h.world.parts (fin r) = fin (L 0)) (i1 : (h.world.gammas m).inverse h.world.parts (fin g) = fin (L 1))
    (i2 : (h.world.gammas m).inverse h.world.parts (fin b) = fin (L 2)) (g0 : (h.world.gammas m).correct h.world.parts (fin (L 0)) = fin r)
    (g1 : (h.world.gammas m).correct h.world.parts (fin (L 1)) = fin g) (g2 : (h.world.gammas m).correct h.world.parts (fin (L 2)) = fin b) :
    ∃ k d h', Adapt.xyz_scale_adaptation a (some i) (some t) h = (ok (some k), h') ∧ h'.colors[k]? = some d ∧ IsRgb d r g b ∧ d.alpha = c.alpha := by
  obtain ⟨x, hx, hX, hxa, hxs⟩ := C112_to_xyz h.world c r g b hc sp m hs.base.space hs.gamma P S _ L hs.reach hs.regular (inv_mulVec P hs.regular.det S) hL i0 i1 i2
  have hlS : ∀ j, limit 0 100 (mixed P (P⁻¹.mulVec S) L j) = mixed P (P⁻¹.mulVec S) L j := fun j => Formula.limit_of (hr j).1 (hr j).2
  simp only [hlS] at hX
  obtain ⟨k, d, h', z, e1, e2, e3, e4, e5, e6, e7⟩ := C97_class_values (.simple .xyz_scale) (fun h => h) h i .rgbDeep c sp u t a hs.base (by simp) (by simp) x hx x.alpha _
    (C80_xyz_scale ⟨h.world, [x]⟩ 0 x sp u t _ S (hs.base.alone (by simp) hx) ⟨hX.col, hX.comps⟩ ⟨hs.whites.source, hs.whites.target⟩ (fun j => (hs.source j).1.ne') hr)
  obtain ⟨n1, n2, n3, n4, n5⟩ := new_regular (.simple .xyz_scale) hs e1
  have hcl : ∀ j, FormulaSpec.clip (L j) = L j := fun j => by rw [FormulaSpec.clip, min_eq_right (hL j).2, max_eq_right (hL j).1]
  have cr : FormulaSpec.clip r = r := by rw [FormulaSpec.clip, min_eq_right hc.r1, max_eq_right hc.r0]
  have cg : FormulaSpec.clip g = g := by rw [FormulaSpec.clip, min_eq_right hc.g1, max_eq_right hc.g0]
  have cb : FormulaSpec.clip b = b := by rw [FormulaSpec.clip, min_eq_right hc.b1, max_eq_right hc.b0]
  obtain ⟨d', f1, f2, f3, f4⟩ := C112_from_xyz h'.world z a m e6 n3 P S _ L n1 n2 (inv_mulVec P hs.regular.det S) hs.inside ⟨e4.col, e4.comps⟩ r g b
    (by rw [n4, n5, hcl]; exact g0) (by rw [n4, n5, hcl]; exact g1) (by rw [n4, n5, hcl]; exact g2)
  rw [cr, cg, cb] at f2
  have hdd : d = d' := by
    have a1 := (converts_iff (s := .xyz) (by simp) (by simp) e4.col).mp e7
    rw [(converts_iff (s := .xyz) (by simp) (by simp) e4.col).mp f1, ok_inj] at a1
    exact a1.symm
  subst hdd
  exact ⟨k, d, h', e1, e2, ⟨f2.col, f2.comps, hc.r0, hc.r1, hc.g0, hc.g1, hc.b0, hc.b1⟩, by rw [f3, e5, hxa]⟩

/-- A memory with a predefined colour space and gamma curve, its white point once more at address 1 and an RGB_DEEP colour. -/
theorem AdaptSpec.exists_rgb_same [StdSort] (p : SpacePreset) (gp : GammaPreset) (r g b : ℝ) (hr : 0 ≤ r ∧ r ≤ 1 ∧ 0 ≤ g ∧ g ≤ 1 ∧ 0 ≤ b ∧ b ≤ 1) :
    ∃ h : Heap, RgbSetting h 0 (rgbOf r g b 1 (some 0)) 0 0 1 0 (presetPrimaries p) (presetWhite p) (presetWhite p) ∧ IsRgb (rgbOf r g b 1 (some 0)) r g b ∧
      UnitEnds ((h.world.gammas 0).correct h.world.parts) ∧ UnitEnds ((h.world.gammas 0).inverse h.world.parts) := by
  obtain ⟨gm, hgm, c1, i1⟩ := C29_ends gp (fun _ => ⟨none, 1⟩) 0
  obtain ⟨s, hs, hreach, hreg, hsg, hsw⟩ := preset_create p (fun _ => p.white.create) 0 0
  have hc : IsRgb (rgbOf r g b 1 (some 0)) r g b := isRgb_rgbOf _ _ hr
  have hpos : ∀ j, 0 < presetWhite p j ∧ presetWhite p j ≤ 100 := by
    intro j
    cases p <;> fin_cases j <;> norm_num [presetWhite, SpacePreset.white, WhitePreset.literals]
  have hsrc : (Function.update (fun _ => p.white.create) 0 p.white.create 0).tri = ⟨fin (presetWhite p 0), fin (presetWhite p 1), fin (presetWhite p 2)⟩ := by
    obtain ⟨q, h1, h2⟩ := hreg.white
    rw [hsw] at h1
    obtain rfl := Option.some.inj h1
    exact h2
  refine ⟨⟨⟨(gp.create (fun _ => ⟨none, 1⟩) 0).1, fun _ => gm, Function.update (fun _ => p.white.create) 0 p.white.create, fun _ => s⟩, [rgbOf r g b 1 (some 0)]⟩,
    ⟨⟨rfl, hc.col, rfl, SpaceDef.usable_of_regular hreach hreg (by simp [hsg]), hsw, by simp⟩, ⟨hsrc, ?_⟩, hsg, hreach, hreg, hpos, hpos, ?_⟩, hc, c1, i1⟩
  · simpa using hsrc
  · have hd := (preset_det p).ne'
    have : (presetPrimaries p)⁻¹.mulVec (presetWhite p) = fun i => ((presetPrimaries p).updateCol i (presetWhite p)).det / (presetPrimaries p).det := by
      conv_lhs => rw [← weights_cramer (presetPrimaries p) (presetWhite p) hd]
      rw [Matrix.mulVec_mulVec, Matrix.nonsing_inv_mul _ (isUnit_iff_ne_zero.mpr hd), Matrix.one_mulVec]
    intro j
    rw [this]
    refine div_ne_zero ?_ hd
    cases p <;> fin_cases j <;> rw [Matrix.det_fin_three] <;>
      simp [presetPrimaries, ccMat, SpacePreset.primaries, Matrix.updateCol_apply, presetWhite, SpacePreset.white, WhitePreset.literals] <;> norm_num

/-- Case: magenta in sRGB, with every predefined gamma curve, adapted to another object with the values of its own white point. -/
example [StdSort] (gp : GammaPreset) : ∃ h k d h', RgbSetting h 0 (rgbOf 1 0 1 1 (some 0)) 0 0 1 0 (presetPrimaries .sRGB) (presetWhite .sRGB) (presetWhite .sRGB) ∧
    Adapt.xyz_scale_adaptation 7 (some 0) (some 1) h = (ok (some k), h') ∧ h'.colors[k]? = some d ∧ IsRgb d 1 0 1 := by
  obtain ⟨h, hs, hc, g1, g2⟩ := exists_rgb_same .sRGB gp 1 0 1 (by norm_num)
  have hd := (preset_det .sRGB).ne'
  have hk : (presetPrimaries .sRGB)⁻¹.mulVec (presetWhite .sRGB) = fun i => ((presetPrimaries .sRGB).updateCol i (presetWhite .sRGB)).det / (presetPrimaries .sRGB).det := by
    conv_lhs => rw [← weights_cramer (presetPrimaries .sRGB) (presetWhite .sRGB) hd]
    rw [Matrix.mulVec_mulVec, Matrix.nonsing_inv_mul _ (isUnit_iff_ne_zero.mpr hd), Matrix.one_mulVec]
  obtain ⟨k, d, h', e1, e2, e3, -⟩ := C80_rgb h 0 _ 0 0 1 0 7 _ _ hs 1 0 1 hc ![1, 0, 1] (by intro j; fin_cases j <;> norm_num) (by
    intro j
    rw [hk]
    fin_cases j <;> simp [mixed, Fin.sum_univ_three, Matrix.det_fin_three, presetPrimaries, ccMat, SpacePreset.primaries, Matrix.updateCol_apply, presetWhite, SpacePreset.white, WhitePreset.literals] <;>
      norm_num)
    g2.2.1 g2.1 g2.2.1 g1.2.1 g1.1 g1.2.1
  exact ⟨h, k, d, h', hs, e1, e2, e3⟩

end

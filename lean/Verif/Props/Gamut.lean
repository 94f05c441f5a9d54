import Verif.Props.Neutral

/-!
# C174: which XYZ colours survive RGB

An RGB colour space can show the colours inside a parallelepiped of XYZ, its gamut.  In exact arithmetic, a colour comes back from RGB unchanged exactly if it is in the gamut; any other
colour is moved to the gamut by limiting the shares of the primaries, and converting again changes nothing.
-/

open Outcome Fl Prog ObjectSpec ConvSpec BlendSpec FormulaSpec Formula

namespace FormulaSpec

/-- The gamut: sums of the primaries (columns of `P`) with the weights `k` of the white point and shares between 0 and 1. -/
def InGamut (P : Matrix (Fin 3) (Fin 3) ℝ) (k x : Fin 3 → ℝ) : Prop := ∃ l, (∀ i, 0 ≤ l i ∧ l i ≤ 1) ∧ x = mixed P k l

/-- Linear channel values that decoding the encoded value gives back: all but those in the gaps at the knees (C28). -/
def Kept (gp : GammaPreset) (x : ℝ) : Prop :=
  match gp with
  | .sRGB => x ≤ 0.0031308 ∨ 0.0031309 ≤ x
  | .romm => x ≤ 0.001953 / 16 ∨ 0.001953 < x
  | .uhdtv => x ≤ 0.081 ∨ 0.0815 ≤ x
  | _ => True

/-- Converting the XYZ colour `c` to RGB and back gives the components `x` and changes neither the opacity nor the colour space. -/
def ThroughRgb [FloatModel] (w : World) (c : Color) (x : Fin 3 → ℝ) : Prop :=
  ∃ d, Converts w c .rgbDeep d ∧ d.alpha = c.alpha ∧ d.space = c.space ∧ Gives w d .xyz [x 0, x 1, x 2]

end FormulaSpec

namespace Gamut

theorem clip_unit (x : ℝ) : 0 ≤ clip x ∧ clip x ≤ 1 := ⟨le_max_left _ _, max_le (by norm_num) (min_le_left _ _)⟩

theorem mixed_inj {P : Matrix (Fin 3) (Fin 3) ℝ} {k l l' : Fin 3 → ℝ} (hd : P.det ≠ 0) (hk : ∀ i, k i ≠ 0) (h : mixed P k l = mixed P k l') : l = l' := by
  have e : ∀ l : Fin 3 → ℝ, mixed P k l = P.mulVec fun j => k j * l j := fun l => by funext i; simp [mixed, Matrix.mulVec, dotProduct, mul_assoc]
  rw [e, e] at h
  have := Matrix.mulVec_injective_iff_isUnit.mpr ((Matrix.isUnit_iff_isUnit_det P).mpr (isUnit_iff_ne_zero.mpr hd)) h
  funext i
  exact mul_left_cancel₀ (hk i) (congrFun this i)

theorem mixed_surj {P : Matrix (Fin 3) (Fin 3) ℝ} {k : Fin 3 → ℝ} (hd : P.det ≠ 0) (hk : ∀ i, k i ≠ 0) (x : Fin 3 → ℝ) : ∃ l, x = mixed P k l := by
  refine ⟨fun i => (P⁻¹.mulVec x) i / k i, ?_⟩
  have e : mixed P k (fun i => (P⁻¹.mulVec x) i / k i) = P.mulVec (P⁻¹.mulVec x) := by
    funext i
    simp only [mixed, Matrix.mulVec, dotProduct]
    refine Finset.sum_congr rfl fun j _ => ?_
    have := hk j
    field_simp
  rw [e, Matrix.mulVec_mulVec, Matrix.mul_nonsing_inv _ (isUnit_iff_ne_zero.mpr hd), Matrix.one_mulVec]

theorem mixed_range {P : Matrix (Fin 3) (Fin 3) ℝ} {u k l : Fin 3 → ℝ} (hP : ∀ i j, 0 ≤ P i j) (hk : P.mulVec k = u) (hk0 : ∀ i, 0 < k i) (hu : ∀ i, u i ≤ 100)
    (hl : ∀ i, 0 ≤ l i ∧ l i ≤ 1) (i : Fin 3) : 0 ≤ mixed P k l i ∧ mixed P k l i ≤ 100 := by
  refine ⟨Finset.sum_nonneg fun j _ => mul_nonneg (mul_nonneg (hP i j) (hk0 j).le) (hl j).1, le_trans ?_ (hu i)⟩
  rw [← hk]
  exact Finset.sum_le_sum fun j _ => mul_le_of_le_one_right (mul_nonneg (hP i j) (hk0 j).le) (hl j).2

section
variable [FloatModel] [ExactModel]

theorem kept_trip [StdSort] (gp : GammaPreset) {x : ℝ} (x0 : 0 ≤ x) (x1 : x ≤ 1) (hc : Kept gp x) :
    ∃ v, 0 ≤ v ∧ v ≤ 1 ∧ GammaPreset.evalParts gp.parts (fin x) = fin v ∧ GammaPreset.evalParts gp.invParts (fin v) = fin x := by
  obtain ⟨g, hg, he⟩ := preset_curves gp (fun _ => ⟨none, 1⟩) 0
  obtain ⟨g', hg', ⟨-, -, hu⟩, -⟩ := C29_ends gp (fun _ => ⟨none, 1⟩) 0
  rw [hg, ok_inj] at hg'
  subst hg'
  obtain ⟨v, hv, v0, v1⟩ := hu x x0 x1
  have hback : g.inverse (gp.create (fun _ => ⟨none, 1⟩) 0).1 (g.correct (gp.create (fun _ => ⟨none, 1⟩) 0).1 (fin x)) = fin x := by
    have fin_of : ∀ {Q : Prop}, (∃ g', (gp.create (fun _ => ⟨none, 1⟩) 0).2 = ok g' ∧ (g' = g → Q)) → Q := by
      rintro Q ⟨g', h1, h2⟩
      rw [hg, ok_inj] at h1
      exact h2 h1.symm
    by_cases hP : gp.IsPower
    · obtain ⟨g', h1, h2⟩ := C28_power gp hP (fun _ => ⟨none, 1⟩) 0
      exact fin_of ⟨g', h1, fun e => e ▸ (h2 x x0 x1).1⟩
    · cases gp <;> simp [GammaPreset.IsPower] at hP
      · obtain ⟨g', h1, h2⟩ := C28_sRGB_partial (fun _ => ⟨none, 1⟩) 0
        exact fin_of ⟨g', h1, fun e => e ▸ (h2 x x0 x1).1 hc⟩
      · obtain ⟨g', h1, h2⟩ := C28_romm_partial (fun _ => ⟨none, 1⟩) 0
        exact fin_of ⟨g', h1, fun e => e ▸ (h2 x x0 x1).1 hc⟩
      · obtain ⟨g', h1, h2⟩ := C28_uhdtv_partial (fun _ => ⟨none, 1⟩) 0
        exact fin_of ⟨g', h1, fun e => e ▸ (h2 x x0 x1).1 hc⟩
  rw [(he _).1] at hv hback
  rw [(he _).2, hv] at hback
  exact ⟨v, v0, v1, hv, hback⟩

theorem through_unique {w : World} {c : Color} {x y : Fin 3 → ℝ} {r g b : ℝ} (hg : Gives w c .rgbDeep [r, g, b]) (hx : ThroughRgb w c x) (hy : ThroughRgb w c y) : x = y := by
  obtain ⟨d, h1, -, -, h2⟩ := hx
  obtain ⟨d', h1', -, -, h2'⟩ := hy
  have : d = d' := by
    obtain ⟨q, g, e1, e2⟩ := h1 ⟨w, [c]⟩ 0 rfl rfl
    obtain ⟨q', g', e1', e2'⟩ := h1' ⟨w, [c]⟩ 0 rfl rfl
    rw [e1] at e1'
    simp only [Prod.mk.injEq, ok_inj, Option.some.injEq] at e1'
    obtain ⟨rfl, rfl⟩ := e1'
    rw [e2] at e2'
    exact Option.some_inj.mp e2'
  subst this
  have e := gives_unique h2 h2'
  simp only [List.cons.injEq, and_true] at e
  funext i
  fin_cases i
  · exact e.1
  · exact e.2.1
  · exact e.2.2

end
end Gamut

open Gamut

section
variable [FloatModel] [ExactModel]

/-- C174: an XYZ colour with the shares `l` of the primaries comes back from RGB with the shares limited to 0 … 1.  For every colour space whose primaries have non-negative
chromaticities and positive weights and whose gamma curve gives these shares back. -/
theorem C174_clipped (w : World) (c : Color) (s m : Nat) (hs : c.space = some s) (hm : (w.spaces s).gamma = some m)
    (P : Matrix (Fin 3) (Fin 3) ℝ) (u k l : Fin 3 → ℝ) (hreach : SpaceReach w.whites (w.spaces s)) (hr : SpaceDef.Regular w.whites (w.spaces s) P u)
    (hP : ∀ i j, 0 ≤ P i j) (hk : P.mulVec k = u) (hk0 : ∀ i, 0 < k i) (hu : ∀ i, u i ≤ 100) (hc : Is .xyz c [mixed P k l 0, mixed P k l 1, mixed P k l 2])
    (hg : ∀ i, ∃ v, 0 ≤ v ∧ v ≤ 1 ∧ (w.gammas m).correct w.parts (fin (clip (l i))) = fin v ∧ (w.gammas m).inverse w.parts (fin v) = fin (clip (l i))) :
    ThroughRgb w c (mixed P k fun i => clip (l i)) := by
  obtain ⟨r, r0, r1, er, er'⟩ := hg 0
  obtain ⟨g, g0, g1, eg, eg'⟩ := hg 1
  obtain ⟨b, b0, b1, eb, eb'⟩ := hg 2
  obtain ⟨d, hd, hi, hda, hds⟩ := C112_from_xyz w c s m hs hm P u k l hreach hr hk (fun i => (hk0 i).ne') hc r g b er eg eb
  rw [clip_of r0 r1, clip_of g0 g1, clip_of b0 b1] at hi
  have h := C112_to_xyz w d r g b ⟨hi.col, hi.comps, r0, r1, g0, g1, b0, b1⟩ s m (hds.trans hs) hm P u k (fun i => clip (l i)) hreach hr hk (fun i => clip_unit _) er' eg' eb'
  have lim : ∀ i, limit 0 100 (mixed P k (fun i => clip (l i)) i) = mixed P k (fun i => clip (l i)) i := fun i =>
    have := mixed_range hP hk hk0 hu (fun i => clip_unit (l i)) i
    limit_of this.1 this.2
  rw [lim, lim, lim] at h
  exact ⟨d, hd, hda, hds, h⟩

/-- C174: exactly the colours of the gamut survive. -/
theorem C174_survives (w : World) (c : Color) (s m : Nat) (hs : c.space = some s) (hm : (w.spaces s).gamma = some m)
    (P : Matrix (Fin 3) (Fin 3) ℝ) (u k x : Fin 3 → ℝ) (hreach : SpaceReach w.whites (w.spaces s)) (hr : SpaceDef.Regular w.whites (w.spaces s) P u)
    (hP : ∀ i j, 0 ≤ P i j) (hk : P.mulVec k = u) (hk0 : ∀ i, 0 < k i) (hu : ∀ i, u i ≤ 100) (hc : Is .xyz c [x 0, x 1, x 2])
    (hg : ∀ t : ℝ, 0 ≤ t → t ≤ 1 → ∃ v, 0 ≤ v ∧ v ≤ 1 ∧ (w.gammas m).correct w.parts (fin t) = fin v ∧ (w.gammas m).inverse w.parts (fin v) = fin t) :
    ThroughRgb w c x ↔ InGamut P k x := by
  obtain ⟨l, rfl⟩ := mixed_surj hr.det (fun i => (hk0 i).ne') x
  have key := C174_clipped w c s m hs hm P u k l hreach hr hP hk hk0 hu hc fun i => hg _ (clip_unit _).1 (clip_unit _).2
  obtain ⟨r, -, -, er, -⟩ := hg _ (clip_unit (l 0)).1 (clip_unit (l 0)).2
  obtain ⟨g, -, -, eg, -⟩ := hg _ (clip_unit (l 1)).1 (clip_unit (l 1)).2
  obtain ⟨b, -, -, eb, -⟩ := hg _ (clip_unit (l 2)).1 (clip_unit (l 2)).2
  have gv := C112_from_xyz w c s m hs hm P u k l hreach hr hk (fun i => (hk0 i).ne') hc r g b er eg eb
  constructor
  · intro h
    exact ⟨fun i => clip (l i), fun i => clip_unit _, through_unique gv h key⟩
  · rintro ⟨l', h, e⟩
    obtain rfl := mixed_inj hr.det (fun i => (hk0 i).ne') e
    have : (fun i => clip (l i)) = l := funext fun i => clip_of (h i).1 (h i).2
    rwa [this] at key

/-- C174 for the preset colour spaces but cieRGB and the gamma curves 1.8, 2.2, 2.6, 2.8 and Adobe. -/
theorem C174_presets [StdSort] (p : SpacePreset) (hp : p ≠ .cieRGB) (gp : GammaPreset) (hgp : gp.IsPower) :
    ∃ w : World, w.Usable (some 0) ∧ SpaceDef.Regular w.whites (w.spaces 0) (presetPrimaries p) (presetWhite p) ∧
      (∀ x, (w.gammas 0).correct w.parts x = GammaPreset.evalParts gp.parts x ∧ (w.gammas 0).inverse w.parts x = GammaPreset.evalParts gp.invParts x) ∧
      ∃ k, (∀ i, 0 < k i) ∧ (presetPrimaries p).mulVec k = presetWhite p ∧
        ∀ (c : Color) (x : Fin 3 → ℝ), Is .xyz c [x 0, x 1, x 2] → c.space = some 0 → (ThroughRgb w c x ↔ InGamut (presetPrimaries p) k x) := by
  obtain ⟨w, hw, hm, -, -, hreach, hr, he⟩ := exists_world p gp
  have hd := preset_det p
  refine ⟨w, hw, hr, he, _, fun i => div_pos ((preset_weights p).2 hp i) hd, weights_cramer _ _ hd.ne', fun c x hc hs => ?_⟩
  refine C174_survives w c 0 0 hs hm _ _ _ x hreach hr (preset_nonneg p) (weights_cramer _ _ hd.ne') (fun i => div_pos ((preset_weights p).2 hp i) hd) (preset_white_le p) hc ?_
  intro t t0 t1
  obtain ⟨v, v0, v1, e1, e2⟩ := kept_trip gp t0 t1 (by cases gp <;> simp [GammaPreset.IsPower] at hgp <;> trivial)
  exact ⟨v, v0, v1, by rw [(he _).1, e1], by rw [(he _).2, e2]⟩

/-- C174 for every gamma curve: the colour comes back with its shares limited, as long as no limited share is in the gap at the knee of the curve.  Missing: the gaps, where even
colours of the gamut change (`C174_violated`), and cieRGB. -/
theorem C174_presets_partial [StdSort] (p : SpacePreset) (hp : p ≠ .cieRGB) (gp : GammaPreset) :
    ∃ w : World, w.Usable (some 0) ∧ SpaceDef.Regular w.whites (w.spaces 0) (presetPrimaries p) (presetWhite p) ∧
      (∀ x, (w.gammas 0).correct w.parts x = GammaPreset.evalParts gp.parts x ∧ (w.gammas 0).inverse w.parts x = GammaPreset.evalParts gp.invParts x) ∧
      ∃ k, (∀ i, 0 < k i) ∧ (presetPrimaries p).mulVec k = presetWhite p ∧
        ∀ (c : Color) (l : Fin 3 → ℝ), (∀ i, Kept gp (clip (l i))) → Is .xyz c [mixed (presetPrimaries p) k l 0, mixed (presetPrimaries p) k l 1, mixed (presetPrimaries p) k l 2] →
          c.space = some 0 → ThroughRgb w c (mixed (presetPrimaries p) k fun i => clip (l i)) := by
  obtain ⟨w, hw, hm, -, -, hreach, hr, he⟩ := exists_world p gp
  have hd := preset_det p
  refine ⟨w, hw, hr, he, _, fun i => div_pos ((preset_weights p).2 hp i) hd, weights_cramer _ _ hd.ne', fun c l hl hc hs => ?_⟩
  refine C174_clipped w c 0 0 hs hm _ _ _ l hreach hr (preset_nonneg p) (weights_cramer _ _ hd.ne') (fun i => div_pos ((preset_weights p).2 hp i) hd) (preset_white_le p) hc ?_
  intro i
  obtain ⟨v, v0, v1, e1, e2⟩ := kept_trip gp (clip_unit (l i)).1 (clip_unit (l i)).2 (hl i)
  exact ⟨v, v0, v1, by rw [(he _).1, e1], by rw [(he _).2, e2]⟩

/-- C174: converting once more changes nothing: the RGB colour `d` of any XYZ colour becomes an XYZ colour whose RGB colour is `d`. -/
theorem C174_once (w : World) (c d : Color) (s m : Nat) (hs : c.space = some s) (hm : (w.spaces s).gamma = some m)
    (P : Matrix (Fin 3) (Fin 3) ℝ) (u k l : Fin 3 → ℝ) (hreach : SpaceReach w.whites (w.spaces s)) (hr : SpaceDef.Regular w.whites (w.spaces s) P u)
    (hP : ∀ i j, 0 ≤ P i j) (hk : P.mulVec k = u) (hk0 : ∀ i, 0 < k i) (hu : ∀ i, u i ≤ 100) (hc : Is .xyz c [mixed P k l 0, mixed P k l 1, mixed P k l 2])
    (hg : ∀ i, ∃ v, 0 ≤ v ∧ v ≤ 1 ∧ (w.gammas m).correct w.parts (fin (clip (l i))) = fin v ∧ (w.gammas m).inverse w.parts (fin v) = fin (clip (l i)))
    (hcd : Converts w c .rgbDeep d) : Trip w d .xyz .rgbDeep d := by
  obtain ⟨r, r0, r1, er, er'⟩ := hg 0
  obtain ⟨g, g0, g1, eg, eg'⟩ := hg 1
  obtain ⟨b, b0, b1, eb, eb'⟩ := hg 2
  obtain ⟨d', hd, hi, hda, hds⟩ := C112_from_xyz w c s m hs hm P u k l hreach hr hk (fun i => (hk0 i).ne') hc r g b er eg eb
  have e : d = d' := by
    obtain ⟨q, g, e1, e2⟩ := hcd ⟨w, [c]⟩ 0 rfl rfl
    obtain ⟨q', g', e1', e2'⟩ := hd ⟨w, [c]⟩ 0 rfl rfl
    rw [e1] at e1'
    simp only [Prod.mk.injEq, ok_inj, Option.some.injEq] at e1'
    obtain ⟨rfl, rfl⟩ := e1'
    rw [e2] at e2'
    exact Option.some_inj.mp e2'
  subst e
  rw [clip_of r0 r1, clip_of g0 g1, clip_of b0 b1] at hi
  refine C48_xyz_partial w d r g b ⟨hi.col, hi.comps, r0, r1, g0, g1, b0, b1⟩ s m (hds.trans hs) hm P u k hreach hr hP hk hk0 hu ?_
  intro v hv
  simp only [List.mem_cons, List.not_mem_nil, or_false] at hv
  rcases hv with rfl | rfl | rfl
  · exact ⟨_, (clip_unit (l 0)).1, (clip_unit (l 0)).2, er', er⟩
  · exact ⟨_, (clip_unit (l 1)).1, (clip_unit (l 1)).2, eg', eg⟩
  · exact ⟨_, (clip_unit (l 2)).1, (clip_unit (l 2)).2, eb', eb⟩

/-- The gaps are real: with the sRGB curve a dark grey of the gamut of sRGB does not come back. -/
theorem C174_violated [StdSort] : ∃ (w : World) (k : Fin 3 → ℝ), w.Usable (some 0) ∧ SpaceDef.Regular w.whites (w.spaces 0) (presetPrimaries .sRGB) (presetWhite .sRGB) ∧
    (∀ x, (w.gammas 0).correct w.parts x = GammaPreset.evalParts GammaPreset.sRGB.parts x ∧ (w.gammas 0).inverse w.parts x = GammaPreset.evalParts GammaPreset.sRGB.invParts x) ∧
    (presetPrimaries .sRGB).mulVec k = presetWhite .sRGB ∧
    ∃ x, InGamut (presetPrimaries .sRGB) k x ∧ ∀ c, Is .xyz c [x 0, x 1, x 2] → c.space = some 0 → ¬ ThroughRgb w c x := by
  obtain ⟨w, hw, hm, -, -, hreach, hr, he⟩ := exists_world .sRGB .sRGB
  have hd := preset_det .sRGB
  have hwt := weights_cramer _ (presetWhite .sRGB) hd.ne'
  have hk0 : ∀ i, 0 < ((presetPrimaries .sRGB).updateCol i (presetWhite .sRGB)).det / (presetPrimaries .sRGB).det := fun i => div_pos ((preset_weights .sRGB).2 (by simp) i) hd
  refine ⟨w, _, hw, hr, he, hwt, mixed _ _ fun _ => 0.003130804, ⟨_, fun _ => by norm_num, rfl⟩, fun c hc hs ht => ?_⟩
  obtain ⟨g, hg, hg'⟩ := preset_curves .sRGB (fun _ => ⟨none, 1⟩) 0
  obtain ⟨g1, hg1, ⟨-, -, hu⟩, -, -, hu'⟩ := C29_ends .sRGB (fun _ => ⟨none, 1⟩) 0
  obtain ⟨g2, hg2, hne⟩ := C28_sRGB_violated (fun _ => ⟨none, 1⟩) 0
  rw [hg, ok_inj] at hg1 hg2
  subst hg1 hg2
  obtain ⟨v, hv, v0, v1⟩ := hu 0.003130804 (by norm_num) (by norm_num)
  obtain ⟨t, ht', t0, t1⟩ := hu' v v0 v1
  rw [hv, ht', Ne, fin_inj] at hne
  rw [(hg' _).1, ← (he _).1] at hv
  rw [(hg' _).2, ← (he _).2] at ht'
  have cl : clip (0.003130804 : ℝ) = 0.003130804 := clip_of (by norm_num) (by norm_num)
  have gv := C112_from_xyz w c 0 0 hs hm _ _ _ (fun _ => 0.003130804) hreach hr hwt (fun i => (hk0 i).ne') hc v v v (by rw [cl]; exact hv) (by rw [cl]; exact hv) (by rw [cl]; exact hv)
  obtain ⟨d, hcd, hi, hda, hds⟩ := id gv
  rw [clip_of v0 v1] at hi
  have h := C112_to_xyz w d v v v ⟨hi.col, hi.comps, v0, v1, v0, v1, v0, v1⟩ 0 0 (hds.trans hs) hm _ _ _ (fun _ => t) hreach hr hwt (fun _ => ⟨t0, t1⟩) ht' ht' ht'
  have lim := fun i => have := mixed_range (preset_nonneg .sRGB) hwt hk0 (preset_white_le .sRGB) (l := fun _ => t) (fun _ => ⟨t0, t1⟩) i; limit_of this.1 this.2
  rw [lim, lim, lim] at h
  have e := through_unique gv ht ⟨d, hcd, hda, hds, h⟩
  exact hne (congrFun (mixed_inj hd.ne' (fun i => (hk0 i).ne') e) 0).symm

/- The white point of sRGB survives; XYZ (0, 0.5, 0), a green no RGB space can show, does not. -/
example [StdSort] : ∃ w : World, w.Usable (some 0) ∧ ThroughRgb w (objL .xyz [0.9504, 1, 1.0888] 1 (some 0)) ![0.9504, 1, 1.0888] ∧
    ¬ ThroughRgb w (objL .xyz [0, 0.5, 0] 1 (some 0)) ![0, 0.5, 0] := by
  obtain ⟨w, hw, -, -, k, hk0, hk, h⟩ := C174_presets .sRGB (by simp) .g2_2 (by simp [GammaPreset.IsPower])
  refine ⟨w, hw, (h _ _ ⟨⟨rfl, rfl, rfl, rfl, rfl⟩, rfl⟩ rfl).mpr ⟨fun _ => 1, by norm_num, ?_⟩, fun n => ?_⟩
  · have : mixed (presetPrimaries .sRGB) k (fun _ => 1) = (presetPrimaries .sRGB).mulVec k := by funext i; simp [mixed, Matrix.mulVec, dotProduct]
    rw [this, hk]
    funext i
    fin_cases i <;> norm_num [presetWhite, SpacePreset.white, WhitePreset.literals]
  · obtain ⟨l, hl, e⟩ := (h _ _ ⟨⟨rfl, rfl, rfl, rfl, rfl⟩, rfl⟩ rfl).mp n
    have e0 := congrFun e 0
    have e1 := congrFun e 1
    simp [mixed, Fin.sum_univ_three, presetPrimaries, ccMat, SpacePreset.primaries] at e0 e1
    have a0 := mul_nonneg (hk0 0).le (hl 0).1
    have a1 := mul_nonneg (hk0 1).le (hl 1).1
    have a2 := mul_nonneg (hk0 2).le (hl 2).1
    norm_num at e0 e1
    nlinarith

/- A colour outside the gamut of sRGB: two parts of red and minus one of blue come back as one part of red. -/
example [StdSort] : ∃ (w : World) (k : Fin 3 → ℝ), w.Usable (some 0) ∧ ∀ c, Is .xyz c [mixed (presetPrimaries .sRGB) k ![2, 0, -1] 0, mixed (presetPrimaries .sRGB) k ![2, 0, -1] 1, mixed (presetPrimaries .sRGB) k ![2, 0, -1] 2] →
    c.space = some 0 → ThroughRgb w c (mixed (presetPrimaries .sRGB) k ![1, 0, 0]) := by
  obtain ⟨w, hw, -, -, k, -, hk, h⟩ := C174_presets_partial .sRGB (by simp) .sRGB
  refine ⟨w, k, hw, fun c hc hs => ?_⟩
  have e : (fun i => clip ((![2, 0, -1] : Fin 3 → ℝ) i)) = ![1, 0, 0] := by funext i; fin_cases i <;> norm_num [clip]
  rw [← e]
  refine h c ![2, 0, -1] (fun i => ?_) hc hs
  rw [congrFun e i]
  fin_cases i <;> norm_num [Kept]

end

section
variable [FloatModel] [ExactModel]

/- The RGB colour of the colour of the last example stays what it is when converted to XYZ and back. -/
example [StdSort] : ∃ (w : World) (k : Fin 3 → ℝ), w.Usable (some 0) ∧ ∀ c d, Is .xyz c [mixed (presetPrimaries .sRGB) k ![2, 0, -1] 0, mixed (presetPrimaries .sRGB) k ![2, 0, -1] 1, mixed (presetPrimaries .sRGB) k ![2, 0, -1] 2] →
    c.space = some 0 → Converts w c .rgbDeep d → Trip w d .xyz .rgbDeep d := by
  obtain ⟨w, hw, hm, -, -, hreach, hr, he⟩ := exists_world .sRGB .g1_8
  have hd := preset_det .sRGB
  refine ⟨w, fun i => ((presetPrimaries .sRGB).updateCol i (presetWhite .sRGB)).det / (presetPrimaries .sRGB).det, hw, fun c d hc hs hcd => ?_⟩
  refine C174_once w c d 0 0 hs hm _ _ _ ![2, 0, -1] hreach hr (preset_nonneg .sRGB) (weights_cramer _ _ hd.ne') (fun i => div_pos ((preset_weights .sRGB).2 (by simp) i) hd) (preset_white_le .sRGB) hc ?_ hcd
  intro i
  obtain ⟨v, v0, v1, e1, e2⟩ := kept_trip .g1_8 (clip_unit ((![2, 0, -1] : Fin 3 → ℝ) i)).1 (clip_unit ((![2, 0, -1] : Fin 3 → ℝ) i)).2 trivial
  exact ⟨v, v0, v1, by rw [(he _).1, e1], by rw [(he _).2, e2]⟩

end

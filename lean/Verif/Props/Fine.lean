import Verif.FineTrip
import Verif.FineGamma
import Verif.Props.Single
import Verif.Props.CieTrips

/-!
# Colour spaces in single precision (C146, C147)

The theorems hold for every arithmetic whose operations have a relative error of at most 2⁻²³ (2⁻²² for `powf`); `Binary32.binary32` is one.
-/

open Outcome Fl Prog ObjectSpec ConvSpec Hue

section
variable [FloatModel] [FineError]

omit [FloatModel] [FineError] in
theorem mat3_ofMatrix (m : Matrix (Fin 3) (Fin 3) ℝ) : Mat.mat3 (fun i j => fin (m i j)) = Mat.ofMatrix fin m := by
  simp [Mat.mat3, Mat.ofMatrix, List.ofFn_succ]

/-- **C146** The matrices of every preset colour space, as they are computed in single precision: the RGB to XYZ matrix is within 1.4e-4 of the matrix the primaries and
the white point define, and the XYZ to RGB matrix is within 4.6e-5 of the inverse of the RGB to XYZ matrix. -/
theorem C146_matrices (p : SpacePreset) (ws : WhiteStore) (q g : Nat) : ∃ s, ∃ T I : Matrix (Fin 3) (Fin 3) ℝ, p.create ws q g = ok s ∧
    s.transform = Mat.ofMatrix fin T ∧ s.inverse = Mat.ofMatrix fin I ∧ T.det ≠ 0 ∧
    (∀ i j, |T i j - SpaceDef.idealMat (presetPrimaries p) (presetWhite p) i j| ≤ 1.4e-4) ∧ ∀ i j, |I i j - T⁻¹ i j| ≤ 4.6e-5 := by
  obtain ⟨s, m, N, hs, -, -, ht, hi, he, -, hd, hN⟩ := Fine.preset_near p ws q g
  choose n hn using fun i j => (hN i j).near
  have hd2 := Fine.det2_le p
  have hd2pos : 0 < Fine.det2 p := lt_of_lt_of_le (by norm_num) hd2.2.1
  refine ⟨s, Matrix.of m, Matrix.of n, hs, ?_, ?_, ?_, fun i j => ?_, fun i j => ?_⟩
  · rw [ht]
    exact mat3_ofMatrix (Matrix.of m)
  · rw [hi]
    refine Eq.trans ?_ (mat3_ofMatrix (Matrix.of n))
    congr 1
    funext i j
    exact (hn i j).1
  · rw [← rdet_eq]
    intro h0
    have h0' : rdet m = 0 := h0
    rw [h0', abs_zero] at hd; linarith
  · rw [Fine.ideal_eq]
    exact (he i j).trans (Fine.error_le p i j)
  · rw [← inv_eq]
    refine (hn i j).2.trans ?_
    have h1 := Fine.inverse_le p i j
    rw [← div_le_iff₀ hd2pos] at h1
    refine le_trans (le_of_eq ?_) h1
    rw [mul_div_right_comm]; norm_num; ring

/-- **C146** In every preset colour space but cieRGB, linear RGB channels between 0 and 1 come back from XYZ within 6.4e-5; XYZ components below 0 or above 100 are
limited on the way as the XYZ class does. -/
theorem C146_linear (p : SpacePreset) (hp : p ≠ .cieRGB) (ws : WhiteStore) (q g : Nat) (s : SpaceDef) (hs : p.create ws q g = ok s) (l : Fin 3 → ℝ) (hl : ∀ i, 0 ≤ l i ∧ l i ≤ 1) :
    ∃ X : Fin 3 → Fl, ∃ x : Fin 3 → ℝ, ∃ Y : Fin 3 → Fl, s.transform.mulVec [fin (l 0), fin (l 1), fin (l 2)] = ok [X 0, X 1, X 2] ∧
      (∀ i, Color.clamp (X i) 100 0 = fin (x i)) ∧ s.inverse.mulVec [fin (x 0), fin (x 1), fin (x 2)] = ok [Y 0, Y 1, Y 2] ∧ ∀ i, Near (Y i) (l i) 6.4e-5 := by
  obtain ⟨s', hs', -, -, h⟩ := Fine.linear_trip p hp ws q g
  rw [hs, ok_inj] at hs'
  subst hs'
  exact h l hl

/-- Case: sRGB in binary32.  The upper left coefficient is 0.4124 by the standard. -/
example (ws : WhiteStore) : letI := Binary32.binary32
    ∃ s, ∃ T : Matrix (Fin 3) (Fin 3) ℝ, SpacePreset.sRGB.create ws 0 0 = ok s ∧ s.transform = Mat.ofMatrix fin T ∧ |T 0 0 - 0.4124| ≤ 3e-4 := by
  letI := Binary32.binary32
  letI := Binary32.binary32_fine
  obtain ⟨s, T, -, h1, h2, -, -, h3, -⟩ := C146_matrices .sRGB ws 0 0
  refine ⟨s, T, h1, h2, ?_⟩
  have h4 := h3 0 0
  have h5 : |SpaceDef.idealMat (presetPrimaries .sRGB) (presetWhite .sRGB) 0 0 - 0.4124| ≤ 1e-4 := by
    rw [Fine.ideal_eq]
    simp only [Fine.weight, radj, rdet, presetPrimaries, ccMat, SpacePreset.primaries, presetWhite, SpacePreset.white, WhitePreset.literals, Matrix.of_apply, Matrix.cons_val',
      Matrix.cons_val]
    norm_num [abs_le]
  have := abs_sub_le (T 0 0) (SpaceDef.idealMat (presetPrimaries .sRGB) (presetWhite .sRGB) 0 0) 0.4124
  norm_num at *; linarith

/-- Case: a linear colour of the space of the cinemas, in binary32. -/
example (ws : WhiteStore) : letI := Binary32.binary32
    ∃ s, ∃ X : Fin 3 → Fl, SpacePreset.dci_p3.create ws 0 0 = ok s ∧ s.transform.mulVec [fin 0.25, fin 0, fin 1] = ok [X 0, X 1, X 2] := by
  letI := Binary32.binary32
  letI := Binary32.binary32_fine
  obtain ⟨s, -, -, h, -⟩ := C146_matrices .dci_p3 ws 0 0
  obtain ⟨X, -, -, hX, -⟩ := C146_linear .dci_p3 (by decide) ws 0 0 s h ![0.25, 0, 1] (by intro i; fin_cases i <;> norm_num)
  exact ⟨s, X, h, hX⟩

/-! ## 8-bit colours -/

omit [FineError] in
theorem gamma_clamped (g : Fl → Fl) {r gg b r' g' b' : ℝ} (e1 : Color.clamp (g (fin r)) 1 0 = fin r') (e2 : Color.clamp (g (fin gg)) 1 0 = fin g') (e3 : Color.clamp (g (fin b)) 1 0 = fin b')
    (al : Fl) (sp : Option Nat) : (obj .rgbDeep r gg b al sp).applyGamma g = obj .rgbDeep r' g' b' al sp := by
  simp only [Color.applyGamma, obj, List.map, Color.maxOf, Color.minOf, e1, e2, e3]

omit [FineError] in
/-- XYZ → RGB_DEEP. -/
theorem back_clamped (w : World) (s m : Nat) (hm : (w.spaces s).gamma = some m) (al : Fl) {x y z lr lg lb r g b : ℝ} {Y0 Y1 Y2 : Fl}
    (hI : (w.spaces s).inverse.mulVec [fin x, fin y, fin z] = ok [Y0, Y1, Y2]) (h1 : Color.clamp Y0 1 0 = fin lr) (h2 : Color.clamp Y1 1 0 = fin lg) (h3 : Color.clamp Y2 1 0 = fin lb)
    (e1 : Color.clamp ((w.gammas m).correct w.parts (fin lr)) 1 0 = fin r) (e2 : Color.clamp ((w.gammas m).correct w.parts (fin lg)) 1 0 = fin g)
    (e3 : Color.clamp ((w.gammas m).correct w.parts (fin lb)) 1 0 = fin b) :
    Leaf.xyz_to_rgb_deep w (obj .xyz x y z al (some s)) = ok (obj .rgbDeep r g b al (some s)) := by
  have r1 := Fine.clamp_range h1
  have r2 := Fine.clamp_range h2
  have r3 := Fine.clamp_range h3
  have cf : ∀ {x : ℝ}, 0 ≤ x ∧ x ≤ 1 → Leaf.clampFloat (fin x) 0 1 = fin x := fun h => by simp [Leaf.clampFloat, h.1, h.2]
  simp only [Leaf.xyz_to_rgb_deep, obj_space, World.space, ok_bind]
  rw [show (obj .xyz x y z al (some s)).comps = [fin x, fin y, fin z] from rfl, hI]
  simp only [ok_bind, Mat.vget, List.getElem?_cons_zero, List.getElem?_cons_succ, obj_alpha _ _ _ _ _ _ (rfl : Color.scalesAlpha .xyz = false), Color.construct_rgbDeep]
  rw [show Color.mkRgbDeep Y0 Y1 Y2 al (some s) = obj .rgbDeep lr lg lb al (some s) by
    simp only [Color.mkRgbDeep, h1, h2, h3, obj, Color.maxOf, Color.minOf]]
  obtain ⟨s1, s2, s3⟩ : (obj .rgbDeep lr lg lb al (some s)).setChannel 0 (fin lr) = ok (obj .rgbDeep lr lg lb al (some s)) ∧
      (obj .rgbDeep lr lg lb al (some s)).setChannel 1 (fin lg) = ok (obj .rgbDeep lr lg lb al (some s)) ∧
      (obj .rgbDeep lr lg lb al (some s)).setChannel 2 (fin lb) = ok (obj .rgbDeep lr lg lb al (some s)) := by
    simp [obj, Color.setChannel, Color.setComponent, Color.setComponentLim, Color.maxOf, Color.minOf, Color.clamp_fin, r1, r2, r3]
  simp only [obj_0, obj_1, obj_2, ok_bind, cf r1, cf r2, cf r3, s1, s2, s3]
  simp only [Leaf.forwardGamma, obj_space, World.space, ok_bind, World.gamma, hm]
  rw [gamma_clamped _ e1 e2 e3]

/-- The borders of the curves that are used here ascend. -/
theorem fine_strict (gp : GammaPreset) (hgp : gp = .sRGB ∨ gp = .uhdtv) : ((gp.parts.Pairwise fun a b => a.border < b.border) ∧ (∀ a ∈ gp.parts, a.border ≠ .nan)) ∧
    ((gp.invParts.Pairwise fun a b => a.border < b.border) ∧ (∀ a ∈ gp.invParts, a.border ≠ .nan)) := by
  have key : ∀ y : ℝ, 1e-20 ≤ y → y ≤ 0.5 → ∃ z, lit y = fin z ∧ z < 1 := by
    intro y h0 h1
    obtain ⟨z, e, hz⟩ := (Fine.lit_appr h0 (h1.trans (by norm_num))).near
    refine ⟨z, e, ?_⟩
    rw [abs_le] at hz
    norm_num at *; linarith
  obtain ⟨z1, e1, h1⟩ := key 0.0031308 (by norm_num) (by norm_num)
  obtain ⟨z2, e2, h2⟩ := key 0.04045 (by norm_num) (by norm_num)
  obtain ⟨z3, e3, h3⟩ := key 0.081 (by norm_num) (by norm_num)
  obtain ⟨z4, e4, h4⟩ := key 0.018053968510807 (by norm_num) (by norm_num)
  rcases hgp with rfl | rfl <;>
    simp [GammaPreset.parts, GammaPreset.invParts, GammaPart.make, e1, e2, e3, e4, h1, h2, h3, h4]

theorem fine_keeps (gp : GammaPreset) (hgp : gp = .sRGB ∨ gp = .uhdtv) : Fine.Keeps gp := by
  rcases hgp with rfl | rfl
  · exact Fine.keeps_sRGB
  · exact Fine.keeps_uhdtv

end

section
variable [FloatModel] [IntExact] [FineError] [StdSort]

/-- **C147** Every 8-bit colour survives RGB_TRUE → XYZ → RGB_TRUE in single precision, exactly, in every preset colour space but cieRGB with the gamma curve of sRGB or of
UHDTV.  (cieRGB: `C48_violated`; for the pure power curves the dark colours are too close to each other for this argument.) -/
theorem C147_bytes (p : SpacePreset) (hp : p ≠ .cieRGB) (gp : GammaPreset) (hgp : gp = .sRGB ∨ gp = .uhdtv) (w : World) (ws : WhiteStore) (s q m : Nat) (st : PartStore) (next : Nat)
    (hs : p.create ws q m = ok (w.spaces s)) (hg : gp.create st next = (w.parts, ok (w.gammas m)))
    (R G B A : ℕ) (hR : R ≤ 255) (hG : G ≤ 255) (hB : B ≤ 255) (hA : A ≤ 255) (c : Color)
    (hc : Color.construct .rgbTrue [fin R, fin G, fin B] (fin A) (some s) = ok c) : Trip w c .xyz .rgbTrue c := by
  obtain ⟨hcol, d, r, g, b, h1, hd, -, ⟨nr, ng, nb⟩, hback⟩ := byte_deep R G B A hR hG hB hA (some s) c hc
  have hdsp : d.space = some s := by
    rw [Color.construct_rgbTrue, ok_inj] at hc
    subst hc
    simp only [Leaf.rgb_true_to_rgb_deep, Color.mkRgbTrue, Conv.get3_0, Conv.get3_1, Conv.get3_2, ok_bind, Color.construct_rgbDeep, ok_inj] at h1
    subst h1
    rfl
  obtain ⟨s', hs', hsw, hsg, hlin⟩ := Fine.linear_trip p hp ws q m
  rw [hs, ok_inj] at hs'
  subst hs'
  -- the gamma curves
  have hst := fine_strict gp hgp
  obtain ⟨g', hg', hev⟩ := GammaPreset.create_eval_of gp hst.1 hst.2 st next
  rw [hg] at hg' hev
  simp only [ok_inj] at hg'
  subst hg'
  have hk := fine_keeps gp hgp
  obtain ⟨lr, er, lr0, lr1, kr⟩ := hk R hR r hd.r0 hd.r1 nr
  obtain ⟨lg, eg, lg0, lg1, kg⟩ := hk G hG g hd.g0 hd.g1 ng
  obtain ⟨lb, eb, lb0, lb1, kb⟩ := hk B hB b hd.b0 hd.b1 nb
  rw [← (hev _).2] at er eg eb
  obtain ⟨X, x, Y, hT, hX, hI, hY⟩ := hlin ![lr, lg, lb] (by
    intro i
    fin_cases i
    · exact ⟨lr0, lr1⟩
    · exact ⟨lg0, lg1⟩
    · exact ⟨lb0, lb1⟩)
  have hT' : (w.spaces s).transform.mulVec [fin lr, fin lg, fin lb] = ok [X 0, X 1, X 2] := hT
  obtain ⟨yr, eyr, hyr⟩ := (hY 0).clamp01 lr0 lr1
  obtain ⟨yg, eyg, hyg⟩ := (hY 1).clamp01 lg0 lg1
  obtain ⟨yb, eyb, hyb⟩ := (hY 2).clamp01 lb0 lb1
  have rr := Fine.clamp_range eyr; have rg := Fine.clamp_range eyg; have rb := Fine.clamp_range eyb
  obtain ⟨r', fr, hr'⟩ := kr yr rr.1 rr.2 hyr
  obtain ⟨g', fg, hg'⟩ := kg yg rg.1 rg.2 hyg
  obtain ⟨b', fb, hb'⟩ := kb yb rb.1 rb.2 hyb
  rw [← (hev _).1] at fr fg fb
  have he := rgb_eq hd
  refine trip_of (s := .rgbTrue) (d := obj .xyz (x 0) (x 1) (x 2) d.malpha (some s)) (by decide) (by decide) (by decide) hcol ?_ ?_
  · change Leaf.rgb_true_to_rgb_deep c >>= Val.rgb_deep_to_xyz w = _
    rw [h1, ok_bind]
    generalize hal : d.malpha = al at he ⊢
    rw [he, hdsp]
    simp only [Val.rgb_deep_to_xyz, Leaf.inverseGamma, obj_space, World.space, ok_bind, World.gamma, hsg]
    rw [gamma_clamped _ er eg eb]
    simp only [Leaf.linear_to_xyz, obj_space, World.space, ok_bind]
    rw [show (obj .rgbDeep lr lg lb al (some s)).comps = [fin lr, fin lg, fin lb] from rfl, hT']
    simp only [ok_bind, Mat.vget, List.getElem?_cons_zero, List.getElem?_cons_succ, obj_alpha _ _ _ _ _ _ (rfl : Color.scalesAlpha .rgbDeep = false), Color.construct_xyz]
    simp only [Color.mkXyz, hX, obj, Color.maxOf, Color.minOf]
  · change Leaf.xyz_to_rgb_deep w _ >>= Leaf.rgb_deep_to_rgb_true = _
    rw [back_clamped w s m hsg _ hI eyr eyg eyb fr fg fb, ok_bind]
    have := hback r' g' b' hr' hg' hb'
    rw [← hdsp, obj_rgb hd]
    exact this

/-- Case: a world with the sRGB colour space, in binary32. -/
example : letI := Binary32.binary32
    ∃ w : World, ∃ ws q m st next, SpacePreset.sRGB.create ws q m = ok (w.spaces 0) ∧ GammaPreset.sRGB.create st next = (w.parts, ok (w.gammas m)) ∧
      Trip w (Color.mkRgbTrue (fin (3 : ℕ)) (fin (200 : ℕ)) (fin (11 : ℕ)) (fin (127 : ℕ)) (some 0)) .xyz .rgbTrue
        (Color.mkRgbTrue (fin (3 : ℕ)) (fin (200 : ℕ)) (fin (11 : ℕ)) (fin (127 : ℕ)) (some 0)) := by
  letI := Binary32.binary32
  letI := Binary32.binary32_int
  letI := Binary32.binary32_fine
  obtain ⟨s, hs, -⟩ := Fine.linear_trip .sRGB (by decide) (fun _ => SpacePreset.sRGB.white.create) 0 0
  have hst := fine_strict .sRGB (.inl rfl)
  obtain ⟨g, hg, -⟩ := GammaPreset.create_eval_of .sRGB hst.1 hst.2 (fun _ => ⟨none, 1⟩) 0
  refine ⟨⟨(GammaPreset.sRGB.create (fun _ => ⟨none, 1⟩) 0).1, fun _ => g, fun _ => SpacePreset.sRGB.white.create, fun _ => s⟩, _, 0, 0, fun _ => ⟨none, 1⟩, 0, hs, Prod.ext rfl hg, ?_⟩
  exact C147_bytes .sRGB (by decide) .sRGB (.inl rfl) _ _ 0 0 0 _ 0 hs (Prod.ext rfl hg) 3 200 11 127 (by norm_num) (by norm_num) (by norm_num) (by norm_num) _
    (Color.construct_rgbTrue _ _ _ _ _)

end

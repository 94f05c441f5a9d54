import Verif.FineXyy
import Verif.Props.FineLab

/-!
# 8-bit colours through xyY in single precision (C160)
-/

open Outcome Fl Prog ObjectSpec ConvSpec Hue

namespace FineXyy

section
variable [FloatModel] [FineError]

/-- Both curves map 0 to 0, in both directions. -/
theorem gamma_zero (gp : GammaPreset) (hgp : gp = .sRGB ∨ gp = .uhdtv) :
    Color.clamp (GammaPreset.evalParts gp.parts (fin 0)) 1 0 = fin 0 ∧ Color.clamp (GammaPreset.evalParts gp.invParts (fin 0)) 1 0 = fin 0 := by
  have key : ∀ y : ℝ, 1e-20 ≤ y → y ≤ 20 → ∃ z, lit y = fin z ∧ 0 < z := by
    intro y h0 h1
    obtain ⟨z, e, hz⟩ := (Fine.lit_appr h0 (h1.trans (by norm_num))).near
    refine ⟨z, e, ?_⟩
    rw [abs_le] at hz
    norm_num at *; linarith
  have hcl : Color.clamp (fin 0) 1 0 = fin 0 := by rw [one_def, zero_def, Color.clamp_fin]; norm_num
  rcases hgp with rfl | rfl
  · obtain ⟨a, ea, ha⟩ := key 0.0031308 (by norm_num) (by norm_num)
    obtain ⟨b, eb, hb⟩ := key 0.04045 (by norm_num) (by norm_num)
    obtain ⟨c, ec, hc⟩ := key 12.92 (by norm_num) (by norm_num)
    simp only [GammaPreset.parts, GammaPreset.invParts, GammaPreset.evalParts, GammaPart.make, ea, eb, ec]
    rw [if_pos (by rw [fin_le]; exact ha.le), if_pos (by rw [fin_le]; exact hb.le), fin_mul, mul_zero, fin_div _ _ hc.ne', zero_div, FloatModel.rnd_zero]
    exact ⟨hcl, hcl⟩
  · obtain ⟨a, ea, ha⟩ := key 0.081 (by norm_num) (by norm_num)
    obtain ⟨b, eb, hb⟩ := key 0.018053968510807 (by norm_num) (by norm_num)
    simp only [GammaPreset.parts, GammaPreset.invParts, GammaPreset.evalParts, GammaPart.make, ea, eb]
    rw [if_pos (by rw [fin_le]; exact ha.le), if_pos (by rw [fin_le]; exact hb.le), fin_mul, mul_zero, fin_div _ _ (by norm_num), zero_div, FloatModel.rnd_zero]
    exact ⟨hcl, hcl⟩

/-- What the trip needs of a gamma curve. -/
theorem held (p : SpacePreset) (gp : GammaPreset) (h : gp = .sRGB ∨ gp = .uhdtv ∧ p ≠ .dci_p3) (n : ℕ) (hn : n ≤ 255) (v : ℝ) (v0 : 0 ≤ v) (v1 : v ≤ 1) (hv : |v - n / 255| ≤ 1 / 100000) :
    ∃ l, Color.clamp (GammaPreset.evalParts gp.invParts (fin v)) 1 0 = fin l ∧ 0 ≤ l ∧ l ≤ 1 ∧ (v = 0 → l = 0) ∧ (1 ≤ n → 6e-5 ≤ l) ∧
      ∀ y : ℝ, 0 ≤ y → y ≤ 1 → |y - l| ≤ (if p = .dci_p3 then 9.3e-5 else 6.4e-5) → ∃ r, Color.clamp (GammaPreset.evalParts gp.parts (fin y)) 1 0 = fin r ∧ |r - n / 255| ≤ 19 / 10000 := by
  have hz := gamma_zero gp (by rcases h with h | h; exacts [.inl h, .inr h.1])
  have base : ∃ l, Color.clamp (GammaPreset.evalParts gp.invParts (fin v)) 1 0 = fin l ∧ 0 ≤ l ∧ l ≤ 1 ∧
      ∀ y : ℝ, 0 ≤ y → y ≤ 1 → |y - l| ≤ (if p = .dci_p3 then 9.3e-5 else 6.4e-5) → ∃ r, Color.clamp (GammaPreset.evalParts gp.parts (fin y)) 1 0 = fin r ∧ |r - n / 255| ≤ 19 / 10000 := by
    rcases h with rfl | ⟨rfl, hp⟩
    · obtain ⟨l, e, l0, l1, -, k⟩ := Fine.keepsBy_sRGB n hn v v0 v1 hv
      refine ⟨l, e, l0, l1, fun y y0 y1 hy => k y y0 y1 (.inl (hy.trans ?_))⟩
      split_ifs <;> norm_num
    · obtain ⟨l, e, l0, l1, k⟩ := Fine.keeps_uhdtv n hn v v0 v1 hv
      rw [if_neg hp]
      exact ⟨l, e, l0, l1, k⟩
  obtain ⟨l, e, l0, l1, k⟩ := base
  refine ⟨l, e, l0, l1, ?_, ?_, k⟩
  · rintro rfl
    rw [hz.2, fin_inj] at e
    exact e.symm
  · intro h1
    by_contra hl
    push Not at hl
    obtain ⟨r, er, hr⟩ := k 0 le_rfl (by norm_num) (by
      rw [zero_sub, abs_neg, abs_of_nonneg l0]
      refine hl.le.trans ?_
      split_ifs <;> norm_num)
    rw [hz.1, fin_inj] at er
    subst er
    rw [zero_sub, abs_neg, abs_of_nonneg (by positivity)] at hr
    have : (1 : ℝ) ≤ n := by exact_mod_cast h1
    have : (1 : ℝ) / 255 ≤ n / 255 := by gcongr
    norm_num at *; linarith

/-- Black takes the chromaticity of the white point, and comes back. -/
theorem black_round (w : World) (s q : Nat) (wp : WhitePreset) (hsw : (w.spaces s).white = some q) (hq : w.whites q = wp.create) (al : Fl) :
    ∃ a b, Leaf.xyz_to_xyy w (obj .xyz 0 0 0 al (some s)) = ok (obj .xyy a b 0 al (some s)) ∧ Leaf.xyy_to_xyz (obj .xyy a b 0 al (some s)) = ok (obj .xyz 0 0 0 al (some s)) := by
  have hlit : ∀ v : ℝ, |v| ≤ 1 → ∃ a, Color.clamp (lit v) 100 0 = fin a ∧ |a| ≤ 100 := by
    intro v hv
    obtain ⟨a, e, -⟩ := FineError.rnd_near v (hv.trans (by norm_num))
    refine ⟨max (min a 100) 0, ?_, ?_⟩
    · rw [show lit v = rnd v from rfl, e, show (100 : Fl) = fin 100 by simp, zero_def, Color.clamp_fin]
    · rw [abs_of_nonneg (le_max_right _ _)]
      exact max_le (min_le_right _ _) (by norm_num)
  have hl : |wp.literals.2.2.2.1| ≤ 1 ∧ |wp.literals.2.2.2.2| ≤ 1 := by
    cases wp <;> simp only [WhitePreset.literals] <;> constructor <;> (rw [abs_le]; constructor <;> norm_num)
  obtain ⟨a, ea, ha⟩ := hlit _ hl.1
  obtain ⟨b, eb, hb⟩ := hlit _ hl.2
  have hz : Color.clamp (fin 0) 100 0 = fin 0 := by rw [show (100 : Fl) = fin 100 by simp, zero_def, Color.clamp_fin]; norm_num
  refine ⟨a, b, ?_, ?_⟩
  · simp only [Leaf.xyz_to_xyy, obj_0, obj_1, obj_2, obj_space, ok_bind, obj_alpha _ _ _ _ _ _ (rfl : Color.scalesAlpha .xyz = false)]
    rw [if_pos (by simp only [zero_def, feq_fin, and_self])]
    simp only [World.space, World.white, ok_bind, hsw, hq, WhitePreset.create, WhitePoint.make, Color.construct_xyy]
    simp only [Color.mkXyz, ea, eb, hz, obj, Color.maxOf, Color.minOf]
  · simp only [Leaf.xyy_to_xyz, obj_0, obj_1, obj_2, obj_space, ok_bind, obj_alpha _ _ _ _ _ _ (rfl : Color.scalesAlpha .xyy = false)]
    split_ifs with h
    · rw [Color.construct_xyz]
      simp only [Color.mkXyz, zero_def] at hz ⊢
      simp only [hz, obj, Color.maxOf, Color.minOf, zero_def]
    · have hb0 : b ≠ 0 := by rwa [zero_def, feq_fin] at h
      have ha' := abs_le.mp ha; have hb' := abs_le.mp hb
      obtain ⟨u, eu, hu⟩ := FineError.rnd_near (1 - a) (by rw [abs_le]; constructor <;> (norm_num; linarith))
      have hu2 : |u - (1 - a)| ≤ 1 := by
        refine hu.trans ?_
        have : |1 - a| ≤ 101 := by rw [abs_le]; constructor <;> linarith
        norm_num at *; linarith
      have hu' := abs_le.mp hu2
      obtain ⟨v, ev, -⟩ := FineError.rnd_near (u - b) (by rw [abs_le]; constructor <;> (norm_num; linarith))
      rw [Color.construct_xyz, one_def, fin_sub, eu, fin_sub, ev, fin_mul, fin_mul, mul_zero, mul_zero, FloatModel.rnd_zero, fin_div _ _ hb0, zero_div, FloatModel.rnd_zero]
      simp only [Color.mkXyz, hz, obj, Color.maxOf, Color.minOf]

end

end FineXyy

section
variable [FloatModel] [IntExact] [FineError] [StdSort]

open FineXyy

set_option maxHeartbeats 1600000 in
/-- **C160** Every 8-bit colour survives RGB_TRUE → xyY → RGB_TRUE in single precision, exactly, in every preset colour space all of whose primaries have a luminance (all but
cieRGB and cieXYZ), with the gamma curve of sRGB, or of UHDTV unless the space is DCI-P3. -/
theorem C160_bytes (p : SpacePreset) (hp : Lit p) (gp : GammaPreset) (hgp : gp = .sRGB ∨ gp = .uhdtv ∧ p ≠ .dci_p3) (w : World) (ws : WhiteStore) (s q m : Nat) (st : PartStore) (next : Nat)
    (hs : p.create ws q m = ok (w.spaces s)) (hq : w.whites q = p.white.create) (hg : gp.create st next = (w.parts, ok (w.gammas m)))
    (R G B A : ℕ) (hR : R ≤ 255) (hG : G ≤ 255) (hB : B ≤ 255) (hA : A ≤ 255) (c : Color)
    (hc : Color.construct .rgbTrue [fin R, fin G, fin B] (fin A) (some s) = ok c) : Trip w c .xyy .rgbTrue c := by
  obtain ⟨hcol, d, r, g, b, h1, hd, ⟨zr, zg, zb⟩, ⟨nr, ng, nb⟩, hback⟩ := byte_deep R G B A hR hG hB hA (some s) c hc
  have hdsp : d.space = some s := by
    rw [Color.construct_rgbTrue, ok_inj] at hc
    subst hc
    simp only [Leaf.rgb_true_to_rgb_deep, Color.mkRgbTrue, Conv.get3_0, Conv.get3_1, Conv.get3_2, ok_bind, Color.construct_rgbDeep, ok_inj] at h1
    subst h1
    rfl
  have zero_of : ∀ {n : ℕ} {v : ℝ}, fin v = Color.clamp (fin n / 255) 1 0 → n = 0 → v = 0 := by
    rintro n v h rfl
    rw [lit_def, fin_div _ _ (by norm_num), Nat.cast_zero, zero_div, FloatModel.rnd_zero, one_def, zero_def, Color.clamp_fin, fin_inj] at h
    rw [h]; norm_num
  obtain ⟨s', hs', hsw, hsg, hlin⟩ := Fine.disturbed_trip p hp.1 ws q m
  rw [hs, ok_inj] at hs'
  subst hs'
  -- the gamma curve
  have hst := fine_strict gp (by rcases hgp with h | h; exacts [.inl h, .inr h.1])
  obtain ⟨g', hg', hev⟩ := GammaPreset.create_eval_of gp hst.1 hst.2 st next
  rw [hg] at hg' hev
  simp only [ok_inj] at hg'
  subst hg'
  obtain ⟨lr, er, lr0, lr1, tr, ur, kr⟩ := held p gp hgp R hR r hd.r0 hd.r1 nr
  obtain ⟨lg, eg, lg0, lg1, tg, ug, kg⟩ := held p gp hgp G hG g hd.g0 hd.g1 ng
  obtain ⟨lb, eb, lb0, lb1, tb, ub, kb⟩ := held p gp hgp B hB b hd.b0 hd.b1 nb
  rw [← (hev _).2] at er eg eb
  set l : Fin 3 → ℝ := ![lr, lg, lb] with hl
  have hl01 : ∀ i, 0 ≤ l i ∧ l i ≤ 1 := by
    intro i
    fin_cases i
    · exact ⟨lr0, lr1⟩
    · exact ⟨lg0, lg1⟩
    · exact ⟨lb0, lb1⟩
  obtain ⟨X, x, hT, hX, x0, xtop, xlow, xzero, -, hI⟩ := hlin l hl01
  have hT' : (w.spaces s).transform.mulVec [fin lr, fin lg, fin lb] = ok [X 0, X 1, X 2] := hT
  -- the trip through xyY
  have main : ∃ a b : ℝ, ∃ x' : Fin 3 → ℝ, Leaf.xyz_to_xyy w (obj .xyz (x 0) (x 1) (x 2) d.malpha (some s)) = ok (obj .xyy a b (x 1) d.malpha (some s)) ∧
      Leaf.xyy_to_xyz (obj .xyy a b (x 1) d.malpha (some s)) = ok (obj .xyz (x' 0) (x' 1) (x' 2) d.malpha (some s)) ∧ (∀ j, 0 ≤ x' j) ∧ ∀ j, |x' j - x j| ≤ 2.5e-6 := by
    by_cases hblack : R = 0 ∧ G = 0 ∧ B = 0
    · have hzero := xzero (by
        intro j
        fin_cases j
        · exact tr (zero_of zr hblack.1)
        · exact tg (zero_of zg hblack.2.1)
        · exact tb (zero_of zb hblack.2.2))
      obtain ⟨a, b, f1, f2⟩ := black_round w s q p.white hsw hq d.malpha
      refine ⟨a, b, fun _ => 0, ?_, ?_, fun _ => le_rfl, fun j => ?_⟩
      · rw [hzero 0, hzero 1, hzero 2]; exact f1
      · rw [hzero 1]; exact f2
      · rw [hzero j]; norm_num
    · have hlit : ∃ j, 6e-5 ≤ l j := by
        by_cases h1 : R = 0
        · by_cases h2 : G = 0
          · by_cases h3 : B = 0
            · exact absurd ⟨h1, h2, h3⟩ hblack
            · exact ⟨2, ub (Nat.one_le_iff_ne_zero.mpr h3)⟩
          · exact ⟨1, ug (Nat.one_le_iff_ne_zero.mpr h2)⟩
        · exact ⟨0, ur (Nat.one_le_iff_ne_zero.mpr h1)⟩
      have hy := xlow 1 (Fine.low_xyy p hp) hlit
      obtain ⟨s0, s1, s2, s3⟩ := Fine.sum_xyy p hp
      have t0 := xtop 0; have t1 := xtop 1; have t2 := xtop 2
      obtain ⟨a, b, x', z', f1, f2, p0, p2, e0, e2⟩ := xyy_round w (some s) d.malpha (x0 0) hy (x0 2) (t0.trans s0) (t1.trans s1) (t2.trans s2) (by linarith)
      refine ⟨a, b, ![x', x 1, z'], f1, f2, ?_, ?_⟩
      · intro j
        fin_cases j
        exacts [p0, x0 1, p2]
      · intro j
        fin_cases j
        · exact e0
        · show |x 1 - x 1| ≤ _
          rw [sub_self, abs_zero]; norm_num
        · exact e2
  obtain ⟨ca, cb, x', f1, f2, p', e'⟩ := main
  obtain ⟨Y, hY, hYn⟩ := hI x' 2.5e-6 (by norm_num) (by norm_num) p' e'
  have hτ : ∀ i, Near (Y i) (l i) (if p = .dci_p3 then 9.3e-5 else 6.4e-5) := by
    intro i
    refine hYn i _ (by split_ifs <;> norm_num) (le_trans ?_ (Fine.trip_xyy p hp i))
    have hcoef : ∀ i j, 0 ≤ Fine.coef p i j := fun i j => le_trans (by norm_num) (Fine.coef_le p i j).1
    have hadj : ∀ i j, 0 ≤ padj (Fine.coef p) i j := by
      intro i j
      have := hcoef 0 0; have := hcoef 0 1; have := hcoef 0 2; have := hcoef 1 0; have := hcoef 1 1; have := hcoef 1 2; have := hcoef 2 0; have := hcoef 2 1; have := hcoef 2 2
      fin_cases i <;> fin_cases j <;> simp only [padj, Matrix.cons_val, Fin.zero_eta, Fin.mk_one, Fin.reduceFinMk] <;> positivity
    have := hadj i 0; have := hadj i 1; have := hadj i 2
    gcongr <;> norm_num
  obtain ⟨yr, eyr, hyr⟩ := (hτ 0).clamp01 lr0 lr1
  obtain ⟨yg, eyg, hyg⟩ := (hτ 1).clamp01 lg0 lg1
  obtain ⟨yb, eyb, hyb⟩ := (hτ 2).clamp01 lb0 lb1
  have rr := Fine.clamp_range eyr; have rg := Fine.clamp_range eyg; have rb := Fine.clamp_range eyb
  obtain ⟨r', fr, hr'⟩ := kr yr rr.1 rr.2 hyr
  obtain ⟨g', fg, hg'⟩ := kg yg rg.1 rg.2 hyg
  obtain ⟨b', fb, hb'⟩ := kb yb rb.1 rb.2 hyb
  rw [← (hev _).1] at fr fg fb
  have he := rgb_eq hd
  have hfwd : Val.rgb_deep_to_xyz w d = ok (obj .xyz (x 0) (x 1) (x 2) d.malpha (some s)) := by
    generalize hal : d.malpha = al at he ⊢
    rw [he, hdsp]
    simp only [Val.rgb_deep_to_xyz, Leaf.inverseGamma, obj_space, World.space, ok_bind, World.gamma, hsg]
    rw [gamma_clamped _ er eg eb]
    simp only [Leaf.linear_to_xyz, obj_space, World.space, ok_bind]
    rw [show (obj .rgbDeep lr lg lb al (some s)).comps = [fin lr, fin lg, fin lb] from rfl, hT']
    simp only [ok_bind, Mat.vget, List.getElem?_cons_zero, List.getElem?_cons_succ, obj_alpha _ _ _ _ _ _ (rfl : Color.scalesAlpha .rgbDeep = false), Color.construct_xyz]
    simp only [Color.mkXyz, hX, obj, Color.maxOf, Color.minOf]
  refine trip_of (s := .rgbTrue) (d := obj .xyy ca cb (x 1) d.malpha (some s)) (by decide) (by decide) (by decide) hcol ?_ ?_
  · change (Leaf.rgb_true_to_rgb_deep c >>= Val.rgb_deep_to_xyz w) >>= Leaf.xyz_to_xyy w = _
    rw [h1, ok_bind, hfwd, ok_bind, f1]
  · change (Leaf.xyy_to_xyz _ >>= fun x => Leaf.xyz_to_rgb_deep w x >>= Leaf.rgb_deep_to_rgb_true) = _
    rw [f2, ok_bind, back_clamped w s m hsg _ hY eyr eyg eyb fr fg fb, ok_bind]
    have := hback r' g' b' hr' hg' hb'
    rw [← hdsp, obj_rgb hd]
    exact this

/-- Case: a world with the colour space ProPhoto RGB and the curve of UHDTV, in binary32. -/
example : letI := Binary32.binary32
    ∃ w : World, ∃ ws q m st next, SpacePreset.ProPhotoRGB.create ws q m = ok (w.spaces 0) ∧ w.whites q = SpacePreset.ProPhotoRGB.white.create ∧
      GammaPreset.uhdtv.create st next = (w.parts, ok (w.gammas m)) ∧
      Trip w (Color.mkRgbTrue (fin (3 : ℕ)) (fin (0 : ℕ)) (fin (11 : ℕ)) (fin (127 : ℕ)) (some 0)) .xyy .rgbTrue
        (Color.mkRgbTrue (fin (3 : ℕ)) (fin (0 : ℕ)) (fin (11 : ℕ)) (fin (127 : ℕ)) (some 0)) := by
  letI := Binary32.binary32
  letI := Binary32.binary32_int
  letI := Binary32.binary32_fine
  obtain ⟨s, hs, -⟩ := Fine.linear_trip .ProPhotoRGB (by decide) (fun _ => SpacePreset.ProPhotoRGB.white.create) 0 0
  have hst := fine_strict .uhdtv (.inr rfl)
  obtain ⟨g, hg, -⟩ := GammaPreset.create_eval_of .uhdtv hst.1 hst.2 (fun _ => ⟨none, 1⟩) 0
  refine ⟨⟨(GammaPreset.uhdtv.create (fun _ => ⟨none, 1⟩) 0).1, fun _ => g, fun _ => SpacePreset.ProPhotoRGB.white.create, fun _ => s⟩, _, 0, 0, fun _ => ⟨none, 1⟩, 0, hs, rfl, Prod.ext rfl hg, ?_⟩
  exact C160_bytes .ProPhotoRGB ⟨by decide, by decide⟩ .uhdtv (.inr ⟨rfl, by decide⟩) _ _ 0 0 0 _ 0 hs rfl (Prod.ext rfl hg) 3 0 11 127 (by norm_num) (by norm_num) (by norm_num) (by norm_num) _
    (Color.construct_rgbTrue _ _ _ _ _)

end

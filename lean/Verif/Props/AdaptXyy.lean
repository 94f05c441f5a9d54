import Verif.Props.AdaptLab

/-!
# XYZ scaling of xyY colours can be undone (C102)

The adaptation converts an xyY colour to XYZ, scales, and converts back; the colour survives as long as its luminance is not 0.
-/

open Outcome Fl Prog ObjectSpec ConvSpec CombineSpec BlendSpec FormulaSpec AdaptSpec Matrix

namespace AdaptSpec

/-- Chromaticity and luminance of tristimulus values. -/
noncomputable def chromOf (v : Fin 3 → ℝ) : List ℝ := [v 0 / (v 0 + v 1 + v 2), v 1 / (v 0 + v 1 + v 2), v 1]

section
variable [FloatModel] [ExactModel]

/-- One adaptation of an xyY colour by XYZ scaling. -/
theorem xyy_scaled (h : Heap) (i : Nat) (c : Color) (sp u t a : Nat) (hs : Setting h i .xyy c sp u t) (ha : a ≠ sp) (s d : Fin 3 → ℝ) (hw : Whites h u t s d) (ps : ∀ j, 0 < s j) (pd : ∀ j, 0 < d j)
    (v : Fin 3 → ℝ) (hc : Is .xyy c (chromOf v)) (al : ℝ) (hal : c.malpha = fin al) (v0 : ∀ j, 0 ≤ v j) (vp : 0 < v 1) (v1 : ∀ j, v j ≤ 100)
    (v2 : ∀ j, v j * (d j / s j) ≤ 100) :
    ∃ k r h', (Method.simple .xyz_scale).fn a (some i) (some t) h = (ok (some k), h') ∧ h'.colors[k]? = some r ∧ Is .xyy r (chromOf fun j => v j * (d j / s j)) ∧ r.malpha = c.malpha ∧
      Setting h' k .xyy r a t u := by
  have S0 : 0 < v 0 + v 1 + v 2 := by linarith [v0 0, v0 2]
  obtain ⟨x, hx, hxi, hxa, hxs⟩ := C110_from_xyy h.world c al hal _ _ _ hc (by positivity)
  have hv : AdaptSpec.IsXyz x v := by
    refine ⟨hxi.col, ?_⟩
    have e0 : v 0 / (v 0 + v 1 + v 2) * v 1 / (v 1 / (v 0 + v 1 + v 2)) = v 0 := by field_simp
    have e2 : (1 - v 0 / (v 0 + v 1 + v 2) - v 1 / (v 0 + v 1 + v 2)) * v 1 / (v 1 / (v 0 + v 1 + v 2)) = v 2 := by field_simp; ring
    have lim : ∀ j, limit 0 100 (v j) = v j := fun j => by rw [limit, min_eq_right (v1 j), max_eq_right (v0 j)]
    rw [hxi.comps, e0, e2, lim, lim, lim]
    simp
  have hs0 : Setting ⟨h.world, [x]⟩ 0 .xyz x sp u t := ⟨rfl, hv.col, by rw [hxs, hs.space], hs.usable, hs.white, hs.other⟩
  have nn : ∀ j, 0 ≤ v j * (d j / s j) := fun j => mul_nonneg (v0 j) (div_pos (pd j) (ps j)).le
  have hy := scale_adapts hs0 hv ⟨hw.source, hw.target⟩ (fun j => (ps j).ne') fun j => ⟨nn j, v2 j⟩
  obtain ⟨k, r, h', z, e, hk, hc', hz, hza, hzs, hzr⟩ := C97_class_values (.simple .xyz_scale) (fun h => h.elim) h i .xyy c sp u t a hs (by simp) (by simp) x hx _ _ hy
  obtain ⟨k2, r2, h2, e2, hk2, hrs, hre, hus, -, -, hwh, -⟩ := C81_partial (.simple .xyz_scale) h i .xyy c sp u t a hs (by simp) (by simp) (fun h => h.elim) ha
  rw [e] at e2
  simp only [Prod.mk.injEq, Outcome.ok.injEq, Option.some.injEq] at e2
  obtain ⟨rfl, rfl⟩ := e2
  rw [hk] at hk2
  obtain rfl := Option.some.inj hk2
  have hzm : z.malpha = fin al := by
    simp only [Color.alpha, hz.col.cls, hv.col.cls, Color.scalesAlpha, Bool.false_eq_true, if_false] at hza
    rw [hza, hxa]
  have p1 : 0 < v 1 * (d 1 / s 1) := mul_pos vp (div_pos (pd 1) (ps 1))
  obtain ⟨l, c2, i2, m2, -⟩ := C110_to_xyy h'.world z al hzm _ _ _ ⟨hz.col, hz.comps⟩ (nn 0) (nn 1) (v2 1) (nn 2) (by linarith [nn 0, nn 2])
  have hlr : l = r := by
    have e1 := (converts_iff (by simp) (by simp) hz.col).mp c2
    rw [(converts_iff (by simp) (by simp) hz.col).mp hzr, ok_inj] at e1
    exact e1.symm
  subst hlr
  exact ⟨k, l, h', e, hk, i2, by rw [m2, hal], hk, hc', hrs, hus, hre.white, hs.other.symm⟩

end

end AdaptSpec

section
variable [FloatModel] [ExactModel]

/-- C102 for xyY colours and XYZ scaling: adapting a colour that is not black to another white point and back to the first gives the original components, exactly. -/
theorem C102_xyy (h : Heap) (i : Nat) (c : Color) (sp u t a b : Nat) (hs : Setting h i .xyy c sp u t) (ha : a ≠ sp) (hb : b ≠ a) (s d : Fin 3 → ℝ) (hw : Whites h u t s d) (ps : ∀ j, 0 < s j)
    (pd : ∀ j, 0 < d j) (x y Y : ℝ) (hc : Is .xyy c [x, y, Y]) (hx : 0 ≤ x) (hy : 0 < y) (hxy : x + y ≤ 1) (hY : 0 < Y) (al : ℝ) (hal : c.malpha = fin al)
    (v1 : ∀ j, ![x * Y / y, Y, (1 - x - y) * Y / y] j ≤ 100) (v2 : ∀ j, ![x * Y / y, Y, (1 - x - y) * Y / y] j * (d j / s j) ≤ 100) :
    ∃ k h' k' h'' r, (Method.simple .xyz_scale).fn a (some i) (some t) h = (ok (some k), h') ∧ (Method.simple .xyz_scale).fn b (some k) (some u) h' = (ok (some k'), h'') ∧ h''.colors[k']? = some r ∧
      r.comps = c.comps ∧ r.alpha = c.alpha ∧ (h''.world.spaces b).white = some u := by
  set v : Fin 3 → ℝ := ![x * Y / y, Y, (1 - x - y) * Y / y] with hv
  have z0 : 0 ≤ 1 - x - y := by linarith
  have v0 : ∀ j, 0 ≤ v j := by
    intro j; fin_cases j <;> simp only [hv, Fin.zero_eta, Fin.mk_one, Fin.reduceFinMk, Matrix.cons_val_zero, Matrix.cons_val_one, Matrix.cons_val] <;> positivity
  have sum : v 0 + v 1 + v 2 = Y / y := by
    simp only [hv, Matrix.cons_val_zero, Matrix.cons_val_one, Matrix.cons_val]
    field_simp; ring
  have hcv : chromOf v = [x, y, Y] := by
    unfold chromOf
    rw [sum]
    simp only [hv, Matrix.cons_val_zero, Matrix.cons_val_one]
    rw [show x * Y / y / (Y / y) = x by field_simp, show Y / (Y / y) = y by field_simp]
  obtain ⟨k, r, h', e, hk, hr, hm, hs'⟩ := xyy_scaled h i c sp u t a hs ha s d hw ps pd v (by rw [hcv]; exact hc) al hal v0 hY v1 v2
  obtain ⟨k2, r2, h2, e2, -, -, -, -, -, -, hwh, -⟩ := C81_partial (.simple .xyz_scale) h i .xyy c sp u t a hs (by simp) (by simp) (fun h => h.elim) ha
  rw [e] at e2
  simp only [Prod.mk.injEq, Outcome.ok.injEq, Option.some.injEq] at e2
  obtain ⟨rfl, rfl⟩ := e2
  have inv : ∀ j, v j * (d j / s j) * (s j / d j) = v j := fun j => by
    have := (ps j).ne'
    have := (pd j).ne'
    field_simp
  obtain ⟨k', r', h'', e', hk', hr', hm', hs''⟩ := xyy_scaled h' k r a t u b hs' hb d s ⟨by rw [hwh]; exact hw.target, by rw [hwh]; exact hw.source⟩ pd ps _ hr al (hm.trans hal)
    (fun j => mul_nonneg (v0 j) (div_pos (pd j) (ps j)).le) (mul_pos hY (div_pos (pd 1) (ps 1))) v2 (fun j => by rw [inv]; exact v1 j)
  simp only [inv] at hr'
  rw [hcv] at hr'
  refine ⟨k, h', k', h'', r', e, e', hk', by rw [hr'.comps, hc.comps], ?_, hs''.white⟩
  simp only [Color.alpha, hr'.col.cls, hc.col.cls, hm', hm]

end

/-- The xyY colour (0.5, 0.25, 0.4) goes from the white point (1, 1, 1) to (0.9, 1, 0.8) and back. -/
example [FloatModel] [ExactModel] (w : World) : ∃ c, Color.construct .xyy [fin 0.5, fin 0.25, fin 0.4] 1 (some 0) = ok c ∧
    ∃ k h' k' h'' r, (Method.simple .xyz_scale).fn 1 (some 0) (some 1) (demo2 w c ![1, 1, 1] ![0.9, 1, 0.8]) = (ok (some k), h') ∧
      (Method.simple .xyz_scale).fn 2 (some k) (some 0) h' = (ok (some k'), h'') ∧ h''.colors[k']? = some r ∧ r.comps = [fin 0.5, fin 0.25, fin 0.4] := by
  obtain ⟨c, ec⟩ := Conv.construct_total .xyy (vs := [fin 0.5, fin 0.25, fin 0.4]) 1 (some 0) rfl
  have hf := Conv.construct_result (t := .xyy) (by simp) rfl ec
  have ec' := ec
  rw [Color.construct_xyy, ok_inj] at ec'
  have cl : ∀ x lo hi : ℝ, lo ≤ x → x ≤ hi → Color.clamp (fin x) (fin hi) (fin lo) = fin x := fun x lo hi h1 h2 => by rw [Color.clamp_fin, min_eq_left h2, max_eq_left h1]
  have hcc : c.comps = [fin 0.5, fin 0.25, fin 0.4] := by
    rw [← ec']
    simp only [Color.mkXyz, lit_def, zero_def]
    rw [cl 0.5 0 100 (by norm_num) (by norm_num), cl 0.25 0 100 (by norm_num) (by norm_num), cl 0.4 0 100 (by norm_num) (by norm_num)]
  have hca : c.malpha = fin 1 := by
    rw [← ec']
    simp [Color.mkXyz, Color.setAlpha, Color.scalesAlpha, one_def, zero_def, Color.clamp_fin]
  have hset : Setting (demo2 w c ![1, 1, 1] ![0.9, 1, 0.8]) 0 .xyy c 0 0 1 :=
    ⟨rfl, hf.col, hf.space, ⟨by simp [demo2], by simp [demo2], Mat.mk_shape3 _ _ _ _ _ _ _ _ _, Mat.mk_shape3 _ _ _ _ _ _ _ _ _⟩, rfl, by simp⟩
  obtain ⟨k, h', k', h'', r, e, e', hk, hr, -⟩ := C102_xyy (demo2 w c ![1, 1, 1] ![0.9, 1, 0.8]) 0 c 0 0 1 1 2 hset (by simp) (by simp) ![1, 1, 1] ![0.9, 1, 0.8] ⟨rfl, rfl⟩
    (by intro j; fin_cases j <;> norm_num) (by intro j; fin_cases j <;> norm_num) 0.5 0.25 0.4 ⟨hf.col, by simpa using hcc⟩ (by norm_num) (by norm_num) (by norm_num) (by norm_num) 1 hca
    (by intro j; fin_cases j <;> norm_num) (by intro j; fin_cases j <;> norm_num)
  exact ⟨c, ec, k, h', k', h'', r, e, e', hk, hr.trans hcc⟩

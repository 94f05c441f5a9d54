import Verif.Props.Adaptations3

/-!
# XYZ scaling and the LAB colours (C172)

XYZ scaling multiplies each tristimulus value by the ratio of the white points, and LAB only looks at the ratio of a colour to its white point.
-/

open Outcome Fl Prog ObjectSpec ConvSpec CombineSpec BlendSpec FormulaSpec AdaptSpec Matrix

namespace AdaptSpec

/-- The tristimulus values of the LAB colour `L`, `p`, `q` as parts of those of the white point. -/
noncomputable def labRatio (L p q : ℝ) : Fin 3 → ℝ := ![labG ((L + 16) / 116 + p / 500), labG ((L + 16) / 116), labG ((L + 16) / 116 - q / 200)]

theorem labF_labG (t : ℝ) : labF (labG t) = t := by
  rcases lt_or_ge (6 / 29) t with h | h
  · rw [labG, if_pos h, labF, if_pos (pow_lt_pow_left₀ h (by norm_num) (by norm_num))]
    rw [← Real.rpow_natCast, ← Real.rpow_mul (by linarith)]
    norm_num
  · rw [labG, if_neg (not_lt.mpr h), labF, if_neg (by norm_num; linarith)]
    ring

section
variable [FloatModel] [ExactModel]

theorem scale_adapts {h : Heap} {i : Nat} {c : Color} {sp u t : Nat} {x s d : Fin 3 → ℝ} (hs : Setting h i .xyz c sp u t) (hx : AdaptSpec.IsXyz c x) (hw : Whites h u t s d) (hn : ∀ j, s j ≠ 0)
    (hd : ∀ j, 0 ≤ x j * (d j / s j) ∧ x j * (d j / s j) ≤ 100) : Adapts (.simple .xyz_scale) h i t c.alpha fun j => x j * (d j / s j) := by
  obtain ⟨y, hy, he⟩ := C97_partial .xyz_scale h i c sp u t x s d hs hx hw (by simpa [cone] using hn)
  have : y = fun j => x j * (d j / s j) := by
    funext j
    have := he j
    simp only [tol, zero_mul] at this
    rw [sub_eq_zero.mp (abs_nonpos_iff.mp this)]
    simp only [published, cone, inv_one, one_mulVec]
    exact clip_id (hd j).1 (hd j).2
  rwa [← this]

end

end AdaptSpec

section
variable [FloatModel] [ExactModel]

/-- C172: whatever its class, a colour has the same LAB components before and after XYZ scaling, each relative to the white point of its own colour space: the LAB components of its
XYZ value `x` are those of the XYZ value `z` of the result. -/
theorem C172_same_lab (h : Heap) (i : Nat) (cls : ColorType) (c : Color) (sp u t a : Nat) (hs : Setting h i cls c sp u t) (hd : cls ≠ .undefined) (hl : cls ≠ .lchAb ∧ cls ≠ .lchUv) (ha : a ≠ sp)
    (s d : Fin 3 → ℝ) (hw : Whites h u t s d) (ps : ∀ j, 0 < s j) (pd : ∀ j, 0 < d j) (x : Color) (v : Fin 3 → ℝ) (hx : Converts h.world c .xyz x) (hv : AdaptSpec.IsXyz x v)
    (al : ℝ) (hal : x.malpha = fin al) (al0 : 0 ≤ al) (al1 : al ≤ 1) (v0 : ∀ j, 0 ≤ v j) (v1 : ∀ j, v j * (d j / s j) ≤ 100) :
    ∃ k r h' z l l', (Method.simple .xyz_scale).fn a (some i) (some t) h = (ok (some k), h') ∧ h'.colors[k]? = some r ∧ Converts h'.world z cls r ∧ AdaptSpec.IsXyz z (fun j => v j * (d j / s j)) ∧
      (h'.world.spaces a).white = some t ∧ z.space = some a ∧ Converts h.world x .lab l ∧ Converts h'.world z .lab l' ∧ l'.comps = l.comps := by
  have hxs : x.space = some sp := by
    obtain ⟨x2, e2, -, hsp2⟩ := val_to_total (s := cls) (t := .xyz) hd (by simp) hs.col (fun _ _ => ⟨sp, hs.space, hs.usable⟩)
    rw [(converts_iff hd (by simp) hs.col).mp hx, ok_inj] at e2
    rw [e2, hsp2, hs.space]
  have hs0 : Setting ⟨h.world, [x]⟩ 0 .xyz x sp u t := ⟨rfl, hv.col, hxs, hs.usable, hs.white, hs.other⟩
  have hy := scale_adapts hs0 hv ⟨hw.source, hw.target⟩ (fun j => (ps j).ne') fun j => ⟨mul_nonneg (v0 j) (div_pos (pd j) (ps j)).le, v1 j⟩
  obtain ⟨k, r, h', z, e, hk, hc, hz, hza, hzs, hzr⟩ := C97_class_values (.simple .xyz_scale) (fun h => h.elim) h i cls c sp u t a hs hd hl x hx _ _ hy
  obtain ⟨k2, r2, h2, e2, -, -, hre, -, -, -, hwh, -⟩ := C81_partial (.simple .xyz_scale) h i cls c sp u t a hs hd hl (fun h => h.elim) ha
  rw [e] at e2
  simp only [Prod.mk.injEq, Outcome.ok.injEq, Option.some.injEq] at e2
  obtain ⟨rfl, rfl⟩ := e2
  have hzm : z.malpha = fin al := by
    simp only [Color.alpha, hz.col.cls, hv.col.cls, Color.scalesAlpha, Bool.false_eq_true, if_false] at hza
    rw [hza, hal]
  have g1 := C111_to_lab h.world x al hal al0 al1 (v 0) (v 1) (v 2) ⟨hv.col, hv.comps⟩ (v0 0) (v0 1) (v0 2) (s 0) (s 1) (s 2) ⟨sp, u, hxs, hs.white, hw.source⟩ (ps 0) (ps 1) (ps 2)
  have nn : ∀ j, 0 ≤ v j * (d j / s j) := fun j => mul_nonneg (v0 j) (div_pos (pd j) (ps j)).le
  have g2 := C111_to_lab h'.world z al hzm al0 al1 _ _ _ ⟨hz.col, hz.comps⟩ (nn 0) (nn 1) (nn 2) (d 0) (d 1) (d 2) ⟨a, t, hzs, hre.white, by rw [hwh]; exact hw.target⟩ (pd 0) (pd 1) (pd 2)
  have q : ∀ j, v j * (d j / s j) / d j = v j / s j := fun j => by
    have := (ps j).ne'
    have := (pd j).ne'
    field_simp
  rw [q, q, q] at g2
  obtain ⟨l, c1, i1, -⟩ := g1
  obtain ⟨l', c2, i2, -⟩ := g2
  exact ⟨k, r, h', z, l, l', e, hk, hzr, hz, hre.white, hzs, c1, c2, i2.comps.trans i1.comps.symm⟩

/-- C172: XYZ scaling does not change the components of a LAB colour. -/
theorem C172_lab (h : Heap) (i : Nat) (c : Color) (sp u t a : Nat) (hs : Setting h i .lab c sp u t) (ha : a ≠ sp) (s d : Fin 3 → ℝ) (hw : Whites h u t s d) (ps : ∀ j, 0 < s j) (pd : ∀ j, 0 < d j)
    (L p q : ℝ) (hc : Is .lab c [L, p, q]) (hL : 0 ≤ L ∧ L ≤ 100) (hp : |p| ≤ 128) (hq : |q| ≤ 128) (al : ℝ) (hal : c.malpha = fin al) (al0 : 0 ≤ al) (al1 : al ≤ 1)
    (v0 : ∀ j, 0 ≤ labRatio L p q j) (v1 : ∀ j, s j * labRatio L p q j ≤ 100) (v2 : ∀ j, d j * labRatio L p q j ≤ 100) :
    ∃ k r h', (Method.simple .xyz_scale).fn a (some i) (some t) h = (ok (some k), h') ∧ h'.colors[k]? = some r ∧ Is .lab r [L, p, q] ∧ r.malpha = c.malpha ∧ Setting h' k .lab r a t u := by
  obtain ⟨x, hx, hxi, hxa, hxs⟩ := C111_from_lab h.world c al hal al0 al1 L p q hc (s 0) (s 1) (s 2) ⟨sp, u, hs.space, hs.white, hw.source⟩
  have hv : AdaptSpec.IsXyz x fun j => s j * labRatio L p q j := by
    refine ⟨hxi.col, ?_⟩
    have lim : ∀ j, limit 0 100 (s j * labRatio L p q j) = s j * labRatio L p q j := fun j => by
      rw [limit, min_eq_right (v1 j), max_eq_right (mul_nonneg (ps j).le (v0 j))]
    have l0 := lim 0
    have l1 := lim 1
    have l2 := lim 2
    simp only [labRatio, Matrix.cons_val_zero, Matrix.cons_val_one, Matrix.cons_val] at l0 l1 l2
    rw [hxi.comps, l0, l1, l2]
    simp [labRatio]
  have sc : ∀ j, s j * labRatio L p q j * (d j / s j) = d j * labRatio L p q j := fun j => by
    have := (ps j).ne'
    field_simp
  have hs0 : Setting ⟨h.world, [x]⟩ 0 .xyz x sp u t := ⟨rfl, hv.col, by rw [hxs, hs.space], hs.usable, hs.white, hs.other⟩
  have hy := scale_adapts hs0 hv ⟨hw.source, hw.target⟩ (fun j => (ps j).ne') fun j => by rw [sc]; exact ⟨mul_nonneg (pd j).le (v0 j), v2 j⟩
  obtain ⟨k, r, h', z, e, hk, hc', hz, hza, hzs, hzr⟩ := C97_class_values (.simple .xyz_scale) (fun h => h.elim) h i .lab c sp u t a hs (by simp) (by simp) x hx _ _ hy
  obtain ⟨k2, r2, h2, e2, hk2, hrs, hre, hus, -, -, hwh, -⟩ := C81_partial (.simple .xyz_scale) h i .lab c sp u t a hs (by simp) (by simp) (fun h => h.elim) ha
  rw [e] at e2
  simp only [Prod.mk.injEq, Outcome.ok.injEq, Option.some.injEq] at e2
  obtain ⟨rfl, rfl⟩ := e2
  rw [hk] at hk2
  obtain rfl := Option.some.inj hk2
  have hzm : z.malpha = fin al := by
    simp only [Color.alpha, hz.col.cls, hv.col.cls, Color.scalesAlpha, Bool.false_eq_true, if_false] at hza
    rw [hza, hxa]
  have nn : ∀ j, 0 ≤ s j * labRatio L p q j * (d j / s j) := fun j => by rw [sc]; exact mul_nonneg (pd j).le (v0 j)
  obtain ⟨l, c2, i2, m2, -⟩ := C111_to_lab h'.world z al hzm al0 al1 _ _ _ ⟨hz.col, hz.comps⟩ (nn 0) (nn 1) (nn 2) (d 0) (d 1) (d 2) ⟨a, t, hzs, hre.white, by rw [hwh]; exact hw.target⟩ (pd 0) (pd 1) (pd 2)
  have hlr : l = r := by
    have e1 := (converts_iff (by simp) (by simp) hz.col).mp c2
    rw [(converts_iff (by simp) (by simp) hz.col).mp hzr, ok_inj] at e1
    exact e1.symm
  subst hlr
  have f : ∀ j, s j * labRatio L p q j * (d j / s j) / d j = labRatio L p q j := fun j => by
    rw [sc, mul_div_cancel_left₀ _ (pd j).ne']
  rw [f, f, f] at i2
  simp only [labRatio, Matrix.cons_val_zero, Matrix.cons_val_one, Matrix.cons_val, labF_labG] at i2
  rw [abs_le] at hp hq
  have lim : ∀ lo hi x y : ℝ, lo ≤ y → y ≤ hi → x = y → limit lo hi x = y := fun lo hi x y h1 h2 h3 => by rw [h3, limit, min_eq_right h2, max_eq_right h1]
  rw [lim 0 100 _ L hL.1 hL.2 (by ring), lim (-128) 128 _ p hp.1 hp.2 (by ring), lim (-128) 128 _ q hq.1 hq.2 (by ring)] at i2
  exact ⟨k, l, h', e, hk, i2, by rw [m2, hal], hk, hc', hrs, hus, hre.white, hs.other.symm⟩

/-- C102 for LAB colours and XYZ scaling: adapting to another white point and back to the first gives the original components, exactly. -/
theorem C102_lab (h : Heap) (i : Nat) (c : Color) (sp u t a b : Nat) (hs : Setting h i .lab c sp u t) (ha : a ≠ sp) (hb : b ≠ a) (s d : Fin 3 → ℝ) (hw : Whites h u t s d) (ps : ∀ j, 0 < s j)
    (pd : ∀ j, 0 < d j) (L p q : ℝ) (hc : Is .lab c [L, p, q]) (hL : 0 ≤ L ∧ L ≤ 100) (hp : |p| ≤ 128) (hq : |q| ≤ 128) (al : ℝ) (hal : c.malpha = fin al) (al0 : 0 ≤ al) (al1 : al ≤ 1)
    (v0 : ∀ j, 0 ≤ labRatio L p q j) (v1 : ∀ j, s j * labRatio L p q j ≤ 100) (v2 : ∀ j, d j * labRatio L p q j ≤ 100) :
    ∃ k h' k' h'' r, (Method.simple .xyz_scale).fn a (some i) (some t) h = (ok (some k), h') ∧ (Method.simple .xyz_scale).fn b (some k) (some u) h' = (ok (some k'), h'') ∧ h''.colors[k']? = some r ∧
      r.comps = c.comps ∧ r.alpha = c.alpha ∧ (h''.world.spaces b).white = some u := by
  obtain ⟨k, r, h', e, hk, hr, hm, hs'⟩ := C172_lab h i c sp u t a hs ha s d hw ps pd L p q hc hL hp hq al hal al0 al1 v0 v1 v2
  obtain ⟨k2, r2, h2, e2, -, -, -, -, -, -, hwh, -⟩ := C81_partial (.simple .xyz_scale) h i .lab c sp u t a hs (by simp) (by simp) (fun h => h.elim) ha
  rw [e] at e2
  simp only [Prod.mk.injEq, Outcome.ok.injEq, Option.some.injEq] at e2
  obtain ⟨rfl, rfl⟩ := e2
  obtain ⟨k', r', h'', e', hk', hr', hm', hs''⟩ := C172_lab h' k r a t u b hs' hb d s ⟨by rw [hwh]; exact hw.target, by rw [hwh]; exact hw.source⟩ pd ps L p q hr hL hp hq al (hm.trans hal) al0 al1 v0 v2 v1
  refine ⟨k, h', k', h'', r', e, e', hk', by rw [hr'.comps, hc.comps], ?_, hs''.white⟩
  simp only [Color.alpha, hr'.col.cls, hc.col.cls, hm', hm]

end

/-- The LAB colour (58, 0, 25) goes from the white point (1, 1, 1) to (0.9, 1, 0.8) and back. -/
example [FloatModel] [ExactModel] (w : World) : ∃ c, Color.construct .lab [fin 58, fin 0, fin 25] 1 (some 0) = ok c ∧
    ∃ k h' k' h'' r, (Method.simple .xyz_scale).fn 1 (some 0) (some 1) (demo2 w c ![1, 1, 1] ![0.9, 1, 0.8]) = (ok (some k), h') ∧
      (Method.simple .xyz_scale).fn 2 (some k) (some 0) h' = (ok (some k'), h'') ∧ h''.colors[k']? = some r ∧ r.comps = [fin 58, fin 0, fin 25] := by
  obtain ⟨c, ec⟩ := Conv.construct_total .lab (vs := [fin 58, fin 0, fin 25]) 1 (some 0) rfl
  have hf := Conv.construct_result (t := .lab) (by simp) rfl ec
  have ec' := ec
  rw [Color.construct_lab, ok_inj] at ec'
  have cl : ∀ x lo hi : ℝ, lo ≤ x → x ≤ hi → Color.clamp (fin x) (fin hi) (fin lo) = fin x := fun x lo hi h1 h2 => by rw [Color.clamp_fin, min_eq_left h2, max_eq_left h1]
  have hcc : c.comps = [fin 58, fin 0, fin 25] := by
    rw [← ec']
    simp only [Color.mkLab, lit_def, zero_def, neg_fin]
    rw [cl 58 0 100 (by norm_num) (by norm_num), cl 0 (-128) 128 (by norm_num) (by norm_num), cl 25 (-128) 128 (by norm_num) (by norm_num)]
  have hca : c.malpha = fin 1 := by
    rw [← ec']
    simp [Color.mkLab, Color.setAlpha, Color.scalesAlpha, one_def, zero_def, Color.clamp_fin]
  have hset : Setting (demo2 w c ![1, 1, 1] ![0.9, 1, 0.8]) 0 .lab c 0 0 1 :=
    ⟨rfl, hf.col, hf.space, ⟨by simp [demo2], by simp [demo2], Mat.mk_shape3 _ _ _ _ _ _ _ _ _, Mat.mk_shape3 _ _ _ _ _ _ _ _ _⟩, rfl, by simp⟩
  have lr : labRatio 58 0 25 = ![(37 / 58) ^ 3, (37 / 58) ^ 3, (37 / 58 - 1 / 8) ^ 3] := by
    rw [labRatio, labG, labG, labG, if_pos (by norm_num), if_pos (by norm_num), if_pos (by norm_num)]
    norm_num
  obtain ⟨k, h', k', h'', r, e, e', hk, hr, -⟩ := C102_lab (demo2 w c ![1, 1, 1] ![0.9, 1, 0.8]) 0 c 0 0 1 1 2 hset (by simp) (by simp) ![1, 1, 1] ![0.9, 1, 0.8] ⟨rfl, rfl⟩
    (by intro j; fin_cases j <;> norm_num) (by intro j; fin_cases j <;> norm_num) 58 0 25 ⟨hf.col, by simpa using hcc⟩ (by norm_num) (by norm_num) (by norm_num [abs_of_pos]) 1 hca (by norm_num) le_rfl
    (by rw [lr]; intro j; fin_cases j <;> norm_num) (by rw [lr]; intro j; fin_cases j <;> norm_num) (by rw [lr]; intro j; fin_cases j <;> norm_num)
  exact ⟨c, ec, k, h', k', h'', r, e, e', hk, hr.trans hcc⟩

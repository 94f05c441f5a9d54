import Verif.Props.CieFormulas
import Verif.Props.Routes

/-!
# C31 for the primaries a colour space was made from, and C130: chromaticities of RGB colours

The chromaticity of an RGB colour is the mean of the chromaticities of the primaries of its colour space, weighted by the light each of them contributes.
-/

open Outcome Fl Prog ObjectSpec ConvSpec BlendSpec FormulaSpec Formula RouteSpec

namespace SpaceSpec

/-- The colour space definitions a program can make from the chromaticities given to the constructor: built, copied, with another white point or gamma curve. -/
inductive Built [FloatModel] (ws : WhiteStore) (rx ry gx gy bx byy : Fl) : SpaceDef → Prop
  | construct {w g s} : SpaceDef.construct ws rx ry gx gy bx byy w g = ok s → Built ws rx ry gx gy bx byy s
  | copy {o s} : Built ws rx ry gx gy bx byy o → SpaceDef.copy o = ok s → Built ws rx ry gx gy bx byy s
  | setWhite {o} (w) : Built ws rx ry gx gy bx byy o → (SpaceDef.setWhitePoint ws o w).2 = ok () → Built ws rx ry gx gy bx byy (SpaceDef.setWhitePoint ws o w).1
  | setGamma {o} (g) : Built ws rx ry gx gy bx byy o → Built ws rx ry gx gy bx byy (SpaceDef.setGamma o g)

/-- The tristimulus values of the white point the definition refers to. -/
def WhiteIs (ws : WhiteStore) (s : SpaceDef) (X Y Z : ℝ) : Prop := ∃ p, s.white = some p ∧ (ws p).tri = ⟨fin X, fin Y, fin Z⟩

end SpaceSpec

open SpaceSpec

theorem built_reach [FloatModel] {ws : WhiteStore} {rx ry gx gy bx byy : Fl} {s : SpaceDef} (h : Built ws rx ry gx gy bx byy s) : SpaceReach ws s := by
  induction h with
  | construct h => exact .construct h
  | copy _ h ih => exact .copy ih h
  | setWhite w _ h ih => exact .setWhite w ih h
  | setGamma g _ ih => exact .setGamma g ih

/-- C31: the primaries a definition reports are the ones given to its constructor, whatever happened since; the third coordinate completes the sum to 1.
For every rounding. -/
theorem C31_reported [FloatModel] {ws : WhiteStore} {rx ry gx gy bx byy : Fl} {s : SpaceDef} (h : Built ws rx ry gx gy bx byy s) :
    s.red = ⟨rx, ry, 1 - rx - ry⟩ ∧ s.green = ⟨gx, gy, 1 - gx - gy⟩ ∧ s.blue = ⟨bx, byy, 1 - bx - byy⟩ := by
  induction h with
  | construct h =>
    unfold SpaceDef.construct at h
    simp only at h
    split at h
    · rename_i s' e
      obtain rfl := Outcome.ok_inj.mp h
      obtain ⟨h1, h2, h3, -⟩ := recompute_frame ws ⟨⟨rx, ry, 1 - rx - ry⟩, ⟨gx, gy, 1 - gx - gy⟩, ⟨bx, byy, 1 - bx - byy⟩, _, .empty, .empty, _⟩
      rw [e] at h1 h2 h3
      exact ⟨h1, h2, h3⟩
    · cases h
    · cases h
  | copy _ h ih =>
    simp only [SpaceDef.copy, Outcome.bind_eq_ok] at h
    obtain ⟨t, ht, i, hi, e⟩ := h
    obtain rfl := Outcome.ok_inj.mp e
    exact ih
  | setWhite w _ _ ih =>
    obtain ⟨h1, h2, h3, -⟩ := recompute_frame ws { (_ : SpaceDef) with white := w }
    exact ⟨h1.trans ih.1, h2.trans ih.2.1, h3.trans ih.2.2⟩
  | setGamma g _ ih => exact ih

theorem built_regular [FloatModel] [ExactModel] {ws : WhiteStore} {rx ry gx gy bx byy X Y Z : ℝ} {s : SpaceDef} (h : Built ws (fin rx) (fin ry) (fin gx) (fin gy) (fin bx) (fin byy) s)
    (hw : WhiteIs ws s X Y Z) (hd : (ccMat rx ry gx gy bx byy).det ≠ 0) : SpaceDef.Regular ws s (ccMat rx ry gx gy bx byy) ![X, Y, Z] := by
  obtain ⟨h1, h2, h3⟩ := C31_reported h
  refine ⟨?_, ?_, ?_, hw, hd⟩
  · rw [h1]; simp [ccMat]
  · rw [h2]; simp [ccMat]
  · rw [h3]; simp [ccMat]

/-- C31: linear red, green and blue have the chromaticities given to the constructor, and together they give the current white point.  `hd` says that the three
chromaticities do not lie on a line. -/
theorem C31_built [FloatModel] [ExactModel] {ws : WhiteStore} {rx ry gx gy bx byy X Y Z : ℝ} {s : SpaceDef} (h : Built ws (fin rx) (fin ry) (fin gx) (fin gy) (fin bx) (fin byy) s)
    (hw : WhiteIs ws s X Y Z) (hd : (gx - rx) * (byy - ry) - (bx - rx) * (gy - ry) ≠ 0) :
    ∃ kr kg kb : ℝ, s.transform.mulVec [1, 0, 0] = ok [fin (kr * rx), fin (kr * ry), fin (kr * (1 - rx - ry))] ∧
      s.transform.mulVec [0, 1, 0] = ok [fin (kg * gx), fin (kg * gy), fin (kg * (1 - gx - gy))] ∧
      s.transform.mulVec [0, 0, 1] = ok [fin (kb * bx), fin (kb * byy), fin (kb * (1 - bx - byy))] ∧
      kr * rx + kg * gx + kb * bx = X ∧ kr * ry + kg * gy + kb * byy = Y ∧ kr * (1 - rx - ry) + kg * (1 - gx - gy) + kb * (1 - bx - byy) = Z := by
  have hd' : (ccMat rx ry gx gy bx byy).det ≠ 0 := by
    have e : (ccMat rx ry gx gy bx byy).det = (gx - rx) * (byy - ry) - (bx - rx) * (gy - ry) := by
      rw [Matrix.det_fin_three]; simp [ccMat]; ring
    rwa [e]
  obtain ⟨k, hk, h1, h2, h3⟩ := C31_primaries ws s (built_reach h) _ _ (built_regular h hw hd')
  refine ⟨k 0, k 1, k 2, by simpa [ccMat] using h1, by simpa [ccMat] using h2, by simpa [ccMat] using h3, ?_, ?_, ?_⟩
  · have := congrFun hk 0; simp [ccMat, Matrix.mulVec, dotProduct, Fin.sum_univ_three] at this; linarith
  · have := congrFun hk 1; simp [ccMat, Matrix.mulVec, dotProduct, Fin.sum_univ_three] at this; linarith
  · have := congrFun hk 2; simp [ccMat, Matrix.mulVec, dotProduct, Fin.sum_univ_three] at this; linarith

/-! ## C130 -/

section
variable [FloatModel] [ExactModel] (w : World) (c : Color) (a : ℝ) (ha : c.malpha = fin a)
include ha

/-- C130: the chromaticity of an RGB colour is the mean of the chromaticities of the primaries, with the light of each channel (`kr * lr` and so on) as weights.  `kr`, `kg`, `kb` are the amounts
of the primaries in the white point, `lr`, `lg`, `lb` the linearised channels. -/
theorem C130_chromaticity (r g b : ℝ) (h : IsRgb c r g b) (s m : Nat) (hs : c.space = some s) (hm : (w.spaces s).gamma = some m) (rx ry gx gy bx byy X Y Z : ℝ)
    (hb : Built w.whites (fin rx) (fin ry) (fin gx) (fin gy) (fin bx) (fin byy) (w.spaces s)) (hw : WhiteIs w.whites (w.spaces s) X Y Z)
    (hd : (gx - rx) * (byy - ry) - (bx - rx) * (gy - ry) ≠ 0)
    (hr : 0 ≤ rx ∧ 0 ≤ ry ∧ rx + ry ≤ 1) (hg : 0 ≤ gx ∧ 0 ≤ gy ∧ gx + gy ≤ 1) (hbl : 0 ≤ bx ∧ 0 ≤ byy ∧ bx + byy ≤ 1)
    (kr kg kb : ℝ) (ekx : kr * rx + kg * gx + kb * bx = X) (eky : kr * ry + kg * gy + kb * byy = Y) (ekz : kr * (1 - rx - ry) + kg * (1 - gx - gy) + kb * (1 - bx - byy) = Z)
    (kr0 : 0 ≤ kr) (kg0 : 0 ≤ kg) (kb0 : 0 ≤ kb) (hmax : X + Y + Z ≤ 100)
    (lr lg lb : ℝ) (hlr : 0 ≤ lr ∧ lr ≤ 1) (hlg : 0 ≤ lg ∧ lg ≤ 1) (hlb : 0 ≤ lb ∧ lb ≤ 1) (er : (w.gammas m).inverse w.parts (fin r) = fin lr)
    (eg : (w.gammas m).inverse w.parts (fin g) = fin lg) (eb : (w.gammas m).inverse w.parts (fin b) = fin lb) (hS : 0 < kr * lr + kg * lg + kb * lb) :
    GivesWith w c .xyy [(kr * lr * rx + kg * lg * gx + kb * lb * bx) / (kr * lr + kg * lg + kb * lb), (kr * lr * ry + kg * lg * gy + kb * lb * byy) / (kr * lr + kg * lg + kb * lb),
      kr * lr * ry + kg * lg * gy + kb * lb * byy] a := by
  have hd' : (ccMat rx ry gx gy bx byy).det ≠ 0 := by
    have e : (ccMat rx ry gx gy bx byy).det = (gx - rx) * (byy - ry) - (bx - rx) * (gy - ry) := by
      rw [Matrix.det_fin_three]; simp [ccMat]; ring
    rwa [e]
  have hk : (ccMat rx ry gx gy bx byy).mulVec ![kr, kg, kb] = ![X, Y, Z] := by
    funext i
    fin_cases i <;> simp [ccMat, Matrix.mulVec, dotProduct, Fin.sum_univ_three] <;> linarith
  obtain ⟨d, hcd, hd, hal, hsp⟩ := C112_to_xyz w c r g b h s m hs hm _ _ ![kr, kg, kb] ![lr, lg, lb] (built_reach hb) (built_regular hb hw hd') hk
    (by intro i; fin_cases i; exacts [hlr, hlg, hlb]) er eg eb
  obtain ⟨lr0, lr1⟩ := hlr
  obtain ⟨lg0, lg1⟩ := hlg
  obtain ⟨lb0, lb1⟩ := hlb
  obtain ⟨hr1, hr2, hr3⟩ := hr
  obtain ⟨hg1, hg2, hg3⟩ := hg
  obtain ⟨hb1, hb2, hb3⟩ := hbl
  have pr := mul_nonneg kr0 lr0
  have pg := mul_nonneg kg0 lg0
  have pb := mul_nonneg kb0 lb0
  have qr := mul_le_of_le_one_right kr0 lr1
  have qg := mul_le_of_le_one_right kg0 lg1
  have qb := mul_le_of_le_one_right kb0 lb1
  have e0 : mixed (ccMat rx ry gx gy bx byy) ![kr, kg, kb] ![lr, lg, lb] 0 = kr * lr * rx + kg * lg * gx + kb * lb * bx := by
    simp [mixed, ccMat, Fin.sum_univ_three]; ring
  have e1 : mixed (ccMat rx ry gx gy bx byy) ![kr, kg, kb] ![lr, lg, lb] 1 = kr * lr * ry + kg * lg * gy + kb * lb * byy := by
    simp [mixed, ccMat, Fin.sum_univ_three]; ring
  have e2 : mixed (ccMat rx ry gx gy bx byy) ![kr, kg, kb] ![lr, lg, lb] 2 = kr * lr * (1 - rx - ry) + kg * lg * (1 - gx - gy) + kb * lb * (1 - bx - byy) := by
    simp [mixed, ccMat, Fin.sum_univ_three]; ring
  have n0 : 0 ≤ kr * lr * rx + kg * lg * gx + kb * lb * bx := by positivity
  have n1 : 0 ≤ kr * lr * ry + kg * lg * gy + kb * lb * byy := by positivity
  have n2 : 0 ≤ kr * lr * (1 - rx - ry) + kg * lg * (1 - gx - gy) + kb * lb * (1 - bx - byy) := by
    have := mul_nonneg pr (by linarith : 0 ≤ 1 - rx - ry)
    have := mul_nonneg pg (by linarith : 0 ≤ 1 - gx - gy)
    have := mul_nonneg pb (by linarith : 0 ≤ 1 - bx - byy)
    linarith
  have hsum : kr * lr * rx + kg * lg * gx + kb * lb * bx + (kr * lr * ry + kg * lg * gy + kb * lb * byy) +
      (kr * lr * (1 - rx - ry) + kg * lg * (1 - gx - gy) + kb * lb * (1 - bx - byy)) = kr * lr + kg * lg + kb * lb := by ring
  have hle : kr * lr + kg * lg + kb * lb ≤ 100 := by nlinarith
  rw [e0, e1, e2, limit_of n0 (by linarith), limit_of n1 (by linarith), limit_of n2 (by linarith)] at hd
  have hda : d.malpha = fin a := by
    rw [show d.alpha = d.malpha from by rw [Color.alpha, hd.col.cls]; rfl, show c.alpha = c.malpha from by rw [Color.alpha, h.col.cls]; rfl] at hal
    rw [hal, ha]
  obtain ⟨q, hq, hq1, hq2, hq3⟩ := C110_to_xyy w d a hda _ _ _ hd n0 n1 (by linarith) n2 (by rw [hsum]; exact hS)
  refine ⟨q, ?_, by rw [hsum] at hq1; exact hq1, hq2, hq3.trans hsp⟩
  rw [converts_iff (s := .rgbDeep) (by simp) (by simp) h.col] at hcd ⊢
  rw [converts_iff (s := .xyz) (by simp) (by simp) hd.col] at hq
  have := Val.cut_all .xyz w c (.rgbDeep, .xyy) (by decide)
  simp only [Val.to] at hcd hq ⊢
  rw [if_neg (by decide)] at hcd hq ⊢
  rw [this, hcd, ok_bind]
  exact hq

/-- C130: every grey but black has the chromaticity of the white point. -/
theorem C130_grey (v : ℝ) (h : IsRgb c v v v) (s m : Nat) (hs : c.space = some s) (hm : (w.spaces s).gamma = some m) (rx ry gx gy bx byy X Y Z : ℝ)
    (hb : Built w.whites (fin rx) (fin ry) (fin gx) (fin gy) (fin bx) (fin byy) (w.spaces s)) (hw : WhiteIs w.whites (w.spaces s) X Y Z)
    (hd : (gx - rx) * (byy - ry) - (bx - rx) * (gy - ry) ≠ 0)
    (hr : 0 ≤ rx ∧ 0 ≤ ry ∧ rx + ry ≤ 1) (hg : 0 ≤ gx ∧ 0 ≤ gy ∧ gx + gy ≤ 1) (hbl : 0 ≤ bx ∧ 0 ≤ byy ∧ bx + byy ≤ 1)
    (kr kg kb : ℝ) (ekx : kr * rx + kg * gx + kb * bx = X) (eky : kr * ry + kg * gy + kb * byy = Y) (ekz : kr * (1 - rx - ry) + kg * (1 - gx - gy) + kb * (1 - bx - byy) = Z)
    (kr0 : 0 ≤ kr) (kg0 : 0 ≤ kg) (kb0 : 0 ≤ kb) (hmin : 0 < X + Y + Z) (hmax : X + Y + Z ≤ 100)
    (l : ℝ) (hl : 0 < l ∧ l ≤ 1) (e : (w.gammas m).inverse w.parts (fin v) = fin l) :
    GivesWith w c .xyy [X / (X + Y + Z), Y / (X + Y + Z), l * Y] a := by
  have hk : kr + kg + kb = X + Y + Z := by linarith
  have hS : kr * l + kg * l + kb * l = l * (X + Y + Z) := by rw [← hk]; ring
  have h1 : kr * l * rx + kg * l * gx + kb * l * bx = l * X := by rw [← ekx]; ring
  have h2 : kr * l * ry + kg * l * gy + kb * l * byy = l * Y := by rw [← eky]; ring
  have := C130_chromaticity w c a ha v v v h s m hs hm rx ry gx gy bx byy X Y Z hb hw hd hr hg hbl kr kg kb ekx eky ekz kr0 kg0 kb0 hmax l l l ⟨hl.1.le, hl.2⟩ ⟨hl.1.le, hl.2⟩ ⟨hl.1.le, hl.2⟩ e e e
    (by rw [hS]; exact mul_pos hl.1 hmin)
  rwa [hS, h1, h2, mul_div_mul_left _ _ hl.1.ne', mul_div_mul_left _ _ hl.1.ne'] at this

end

section
variable [FloatModel] [ExactModel]

/-- A memory with a predefined colour space and gamma curve, made by the constructor. -/
theorem exists_built [StdSort] (p : SpacePreset) (gp : GammaPreset) : ∃ w : World, (w.spaces 0).gamma = some 0 ∧
    Built w.whites (fin p.primaries.1) (fin p.primaries.2.1) (fin p.primaries.2.2.1) (fin p.primaries.2.2.2.1) (fin p.primaries.2.2.2.2.1) (fin p.primaries.2.2.2.2.2) (w.spaces 0) ∧
    WhiteIs w.whites (w.spaces 0) (presetWhite p 0) (presetWhite p 1) (presetWhite p 2) ∧
    (w.gammas 0).inverse w.parts 0 = 0 ∧ (w.gammas 0).inverse w.parts 1 = 1 := by
  obtain ⟨g, hg, he⟩ := preset_curves gp (fun _ => ⟨none, 1⟩) 0
  obtain ⟨gm', hg', -, ⟨i0, i1, -⟩⟩ := C29_ends gp (fun _ => ⟨none, 1⟩) 0
  rw [hg, ok_inj] at hg'
  subst hg'
  obtain ⟨s, hs, hreach, hr, hsg, hsw⟩ := preset_create p (fun _ => p.white.create) 0 0
  refine ⟨⟨(gp.create (fun _ => ⟨none, 1⟩) 0).1, fun _ => g, Function.update (fun _ => p.white.create) 0 p.white.create, fun _ => s⟩, hsg,
    .construct (w := some 0) (g := some 0) (by simpa [SpacePreset.create] using hs), hr.white, ?_, ?_⟩
  · simpa using i0
  · simpa using i1

/-- C130: pure red, green and blue of a predefined colour space have the chromaticities of its primaries (cieRGB has a wrong white point, C86). -/
theorem C130_presets [StdSort] (p : SpacePreset) (hp : p ≠ .cieRGB) (gp : GammaPreset) (a : ℝ) : ∃ w : World,
    (∃ Y, GivesWith w (rgbOf 1 0 0 (fin a) (some 0)) .xyy [p.primaries.1, p.primaries.2.1, Y] a) ∧
    (∃ Y, GivesWith w (rgbOf 0 1 0 (fin a) (some 0)) .xyy [p.primaries.2.2.1, p.primaries.2.2.2.1, Y] a) ∧
    (∃ Y, GivesWith w (rgbOf 0 0 1 (fin a) (some 0)) .xyy [p.primaries.2.2.2.2.1, p.primaries.2.2.2.2.2, Y] a) := by
  obtain ⟨w, hm, hb, hw, i0, i1⟩ := exists_built p gp
  have hdet := preset_det p
  have hwt := weights_cramer _ (presetWhite p) hdet.ne'
  have kp : ∀ i, 0 < (fun i => ((presetPrimaries p).updateCol i (presetWhite p)).det / (presetPrimaries p).det) i := fun i => div_pos ((preset_weights p).2 hp i) hdet
  generalize (fun i => ((presetPrimaries p).updateCol i (presetWhite p)).det / (presetPrimaries p).det) = k at hwt kp
  have hdet' : (p.primaries.2.2.1 - p.primaries.1) * (p.primaries.2.2.2.2.2 - p.primaries.2.1) - (p.primaries.2.2.2.2.1 - p.primaries.1) * (p.primaries.2.2.2.1 - p.primaries.2.1) ≠ 0 := by
    have e : (presetPrimaries p).det = (p.primaries.2.2.1 - p.primaries.1) * (p.primaries.2.2.2.2.2 - p.primaries.2.1) -
        (p.primaries.2.2.2.2.1 - p.primaries.1) * (p.primaries.2.2.2.1 - p.primaries.2.1) := by
      rw [Matrix.det_fin_three]; simp [presetPrimaries, ccMat]; ring
    rw [← e]; exact hdet.ne'
  have e0 := congrFun hwt 0
  have e1 := congrFun hwt 1
  have e2 := congrFun hwt 2
  simp only [Matrix.mulVec, dotProduct, Fin.sum_univ_three, presetPrimaries, ccMat, Matrix.of_apply, Matrix.cons_val', Matrix.cons_val_zero, Matrix.cons_val_one, Matrix.cons_val] at e0 e1 e2
  have hP : (0 ≤ p.primaries.1 ∧ 0 ≤ p.primaries.2.1 ∧ p.primaries.1 + p.primaries.2.1 ≤ 1) ∧ (0 ≤ p.primaries.2.2.1 ∧ 0 ≤ p.primaries.2.2.2.1 ∧ p.primaries.2.2.1 + p.primaries.2.2.2.1 ≤ 1) ∧
      (0 ≤ p.primaries.2.2.2.2.1 ∧ 0 ≤ p.primaries.2.2.2.2.2 ∧ p.primaries.2.2.2.2.1 + p.primaries.2.2.2.2.2 ≤ 1) ∧ presetWhite p 0 + presetWhite p 1 + presetWhite p 2 ≤ 100 := by
    rw [show presetWhite p 0 = p.white.literals.1 from rfl, show presetWhite p 1 = p.white.literals.2.1 from rfl, show presetWhite p 2 = p.white.literals.2.2.1 from rfl]
    cases p <;> norm_num [SpacePreset.primaries, SpacePreset.white, WhitePreset.literals]
  obtain ⟨hr, hg, hbl, hmax⟩ := hP
  have key := fun r g b lr lg lb (h01 : 0 ≤ r ∧ r ≤ 1 ∧ 0 ≤ g ∧ g ≤ 1 ∧ 0 ≤ b ∧ b ≤ 1) => C130_chromaticity w (rgbOf r g b (fin a) (some 0)) a rfl r g b (isRgb_rgbOf _ _ h01) 0 0 rfl hm _ _ _ _ _ _ _ _ _ hb hw hdet' hr hg hbl
    (k 0) (k 1) (k 2) (by linarith) (by linarith) (by linarith) (kp 0).le (kp 1).le (kp 2).le hmax lr lg lb
  rw [one_def] at i1
  rw [zero_def] at i0
  have o : (0 : ℝ) ≤ 1 ∧ (1 : ℝ) ≤ 1 := by norm_num
  have z : (0 : ℝ) ≤ 0 ∧ (0 : ℝ) ≤ 1 := by norm_num
  refine ⟨w, ⟨k 0 * p.primaries.2.1, ?_⟩, ⟨k 1 * p.primaries.2.2.2.1, ?_⟩, ⟨k 2 * p.primaries.2.2.2.2.2, ?_⟩⟩
  · have := key 1 0 0 1 0 0 (by norm_num) o z z i1 i0 i0 (by simpa using kp 0)
    simpa [mul_div_cancel_left₀ _ (kp 0).ne'] using this
  · have := key 0 1 0 0 1 0 (by norm_num) z o z i0 i1 i0 (by simpa using kp 1)
    simpa [mul_div_cancel_left₀ _ (kp 1).ne'] using this
  · have := key 0 0 1 0 0 1 (by norm_num) z z o i0 i0 i1 (by simpa using kp 2)
    simpa [mul_div_cancel_left₀ _ (kp 2).ne'] using this

/- sRGB red is at (0.64, 0.33). -/
example [StdSort] : ∃ (w : World) (Y : ℝ), GivesWith w (rgbOf 1 0 0 (fin 1) (some 0)) .xyy [0.64, 0.33, Y] 1 := by
  obtain ⟨w, ⟨Y, h⟩, -⟩ := C130_presets .sRGB (by decide) .sRGB 1
  exact ⟨w, Y, h⟩

/- The hypotheses of C31_built are met by sRGB. -/
example [StdSort] : ∃ ws s, Built ws (fin 0.64) (fin 0.33) (fin 0.3) (fin 0.6) (fin 0.15) (fin 0.06) s ∧ WhiteIs ws s 0.9504 1 1.0888 ∧
    (0.3 - 0.64) * (0.06 - 0.33) - (0.15 - 0.64) * (0.6 - 0.33) ≠ (0 : ℝ) := by
  obtain ⟨w, -, hb, hw, -⟩ := exists_built .sRGB .sRGB
  exact ⟨_, _, hb, hw, by norm_num⟩

end

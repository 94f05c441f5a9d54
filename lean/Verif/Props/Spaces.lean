import Verif.SpaceLemmas
import Mathlib.LinearAlgebra.Matrix.Adjugate

/-! # Properties of white points and RGB colour space definitions (C30–C32, C86, C87) -/

open Outcome Fl

/-! ## C30 -/

/-- C30, built from chromaticity coordinates: the tristimulus values have those chromaticities and Y = 1. -/
theorem C30_from_chromaticity [FloatModel] [ExactModel] (x y : ℝ) (hy : y ≠ 0) :
    let w := WhitePoint.ofChrom (fin x) (fin y)
    w.chrom = ⟨fin x, fin y, fin (1 - x - y)⟩ ∧ w.tri.y = fin 1 ∧ WhitePoint.toChrom w.tri = w.chrom ∧
    ∃ X Z : ℝ, w.tri = ⟨fin X, fin 1, fin Z⟩ ∧ X / (X + 1 + Z) = x ∧ 1 / (X + 1 + Z) = y := by
  have hs : x / y + 1 + (1 - x - y) / y = 1 / y := by field_simp; ring
  have e : (WhitePoint.ofChrom (fin x) (fin y)).tri = ⟨fin (x / y), fin 1, fin ((1 - x - y) / y)⟩ := by
    simp only [WhitePoint.ofChrom, WhitePoint.toTri, one_def, sub_exact, div_exact 1 y hy, mul_exact]
    rw [show 1 / y * x = x / y by ring, show 1 / y * y = 1 by field_simp, show 1 / y * (1 - x - y) = (1 - x - y) / y by ring]
  have hc : (WhitePoint.ofChrom (fin x) (fin y)).chrom = ⟨fin x, fin y, fin (1 - x - y)⟩ := by
    simp [WhitePoint.ofChrom]
  have hne : (1 / y : ℝ) ≠ 0 := by positivity
  refine ⟨hc, by rw [e], ?_, x / y, (1 - x - y) / y, e, ?_, ?_⟩
  · rw [e, hc]
    simp only [WhitePoint.toChrom, add_exact, hs, div_exact _ _ hne]
    congr 2 <;> field_simp
  · rw [hs]; field_simp
  · rw [hs]; field_simp

/-- C30, built from tristimulus values: the chromaticities sum to 1 and convert back, for the Y given and proportionally for every other Y. -/
theorem C30_from_tristimulus [FloatModel] [ExactModel] (X Y Z : ℝ) (hs : X + Y + Z ≠ 0) :
    let w := WhitePoint.ofTri (fin X) (fin Y) (fin Z)
    w.tri = ⟨fin X, fin Y, fin Z⟩ ∧
    (∃ x y z : ℝ, w.chrom = ⟨fin x, fin y, fin z⟩ ∧ x + y + z = 1) ∧
    (Y ≠ 0 → WhitePoint.toTri w.chrom (fin Y) = w.tri ∧
      ∀ Y' : ℝ, WhitePoint.toTri w.chrom (fin Y') = ⟨fin (Y' / Y * X), fin Y', fin (Y' / Y * Z)⟩) := by
  have hc : (WhitePoint.ofTri (fin X) (fin Y) (fin Z)).chrom = ⟨fin (X / (X + Y + Z)), fin (Y / (X + Y + Z)), fin (Z / (X + Y + Z))⟩ := by
    simp only [WhitePoint.ofTri, WhitePoint.toChrom, add_exact, div_exact _ _ hs]
  have ht : (WhitePoint.ofTri (fin X) (fin Y) (fin Z)).tri = ⟨fin X, fin Y, fin Z⟩ := rfl
  have gen : Y ≠ 0 → ∀ Y' : ℝ, WhitePoint.toTri (WhitePoint.ofTri (fin X) (fin Y) (fin Z)).chrom (fin Y') =
      ⟨fin (Y' / Y * X), fin Y', fin (Y' / Y * Z)⟩ := by
    intro hY Y'
    rw [hc]
    have hne : Y / (X + Y + Z) ≠ 0 := div_ne_zero hY hs
    simp only [WhitePoint.toTri, div_exact _ _ hne, mul_exact]
    congr 2 <;> field_simp
  refine ⟨ht, ⟨_, _, _, hc, by field_simp⟩, fun hY => ⟨?_, gen hY⟩⟩
  rw [gen hY, ht]
  congr 2 <;> field_simp

example : (0.329 : ℝ) ≠ 0 ∧ (0.9504 : ℝ) + 1 + 1.0888 ≠ 0 := by norm_num

/-! ## C31 and C32 -/

/-- Every colour space definition a program can make, starting from white points in memory (`ws`). -/
inductive SpaceReach [FloatModel] (ws : WhiteStore) : SpaceDef → Prop
  | construct {rx ry gx gy bx byy w g s} : SpaceDef.construct ws rx ry gx gy bx byy w g = ok s → SpaceReach ws s
  | copy {o s} : SpaceReach ws o → SpaceDef.copy o = ok s → SpaceReach ws s
  | setWhite {o} (w) : SpaceReach ws o → (SpaceDef.setWhitePoint ws o w).2 = ok () → SpaceReach ws (SpaceDef.setWhitePoint ws o w).1
  | setGamma {o} (g) : SpaceReach ws o → SpaceReach ws (SpaceDef.setGamma o g)

theorem recompute_frame [FloatModel] (ws : WhiteStore) (s : SpaceDef) :
    (SpaceDef.recompute ws s).1.red = s.red ∧ (SpaceDef.recompute ws s).1.green = s.green ∧ (SpaceDef.recompute ws s).1.blue = s.blue ∧
    (SpaceDef.recompute ws s).1.white = s.white := by
  obtain ⟨r, g, b, w, t, i, c⟩ := s
  unfold SpaceDef.recompute
  cases w with
  | none => exact ⟨rfl, rfl, rfl, rfl⟩
  | some w =>
    simp only
    cases SpaceDef.calcMatrix r g b (ws w).tri with
    | ub => exact ⟨rfl, rfl, rfl, rfl⟩
    | throw => exact ⟨rfl, rfl, rfl, rfl⟩
    | ok t0 =>
      simp only
      cases t.assign t0 with
      | ub => exact ⟨rfl, rfl, rfl, rfl⟩
      | throw => exact ⟨rfl, rfl, rfl, rfl⟩
      | ok t' =>
        simp only
        cases t'.invert with
        | ub => exact ⟨rfl, rfl, rfl, rfl⟩
        | throw => exact ⟨rfl, rfl, rfl, rfl⟩
        | ok i0 =>
          simp only
          cases i.assign i0 <;> exact ⟨rfl, rfl, rfl, rfl⟩

open Classical in
theorem space_inv [FloatModel] [ExactModel] (ws : WhiteStore) (s : SpaceDef) (h : SpaceReach ws s) (P : Matrix (Fin 3) (Fin 3) ℝ) (w : Fin 3 → ℝ)
    (hr : SpaceDef.Regular ws s P w) : s.transform = Mat.ofMatrix fin (SpaceDef.idealMat P w) ∧
      s.inverse = Mat.ofMatrix fin (if (SpaceDef.idealMat P w).det = 0 then SpaceDef.idealMat P w else (SpaceDef.idealMat P w)⁻¹) := by
  have hrec : ∀ s0 : SpaceDef, SpaceDef.Regular ws (SpaceDef.recompute ws s0).1 P w →
      (SpaceDef.recompute ws s0).1.transform = Mat.ofMatrix fin (SpaceDef.idealMat P w) ∧
      (SpaceDef.recompute ws s0).1.inverse = Mat.ofMatrix fin (if (SpaceDef.idealMat P w).det = 0 then SpaceDef.idealMat P w else (SpaceDef.idealMat P w)⁻¹) := by
    intro s0 h
    obtain ⟨f1, f2, f3, f4⟩ := recompute_frame ws s0
    have : SpaceDef.Regular ws s0 P w := ⟨f1 ▸ h.red, f2 ▸ h.green, f3 ▸ h.blue, f4 ▸ h.white, h.det⟩
    rw [SpaceDef.recompute_ok this]
    exact ⟨rfl, rfl⟩
  induction h with
  | construct h =>
    unfold SpaceDef.construct at h
    simp only at h
    split at h
    · rename_i s' e
      obtain rfl := Outcome.ok_inj.mp h
      rw [show s' = (SpaceDef.recompute ws _).1 from by rw [e]] at hr ⊢
      exact hrec _ hr
    · cases h
    · cases h
  | copy ho h ih =>
    simp only [SpaceDef.copy, Outcome.bind_eq_ok] at h
    obtain ⟨t, ht, i, hi, e⟩ := h
    obtain rfl := Outcome.ok_inj.mp e
    obtain ⟨i1, i2⟩ := ih ⟨hr.red, hr.green, hr.blue, hr.white, hr.det⟩
    simp only [Mat.copy] at ht hi
    rw [show (⟨_, _, _⟩ : Mat Fl) = _ from i1, Mat.assign_ok] at ht
    rw [show (⟨_, _, _⟩ : Mat Fl) = _ from i2, Mat.assign_ok] at hi
    exact ⟨(Outcome.ok_inj.mp ht).symm, (Outcome.ok_inj.mp hi).symm⟩
  | setWhite w' _ _ _ => exact hrec _ hr
  | setGamma g _ ih => exact ih ⟨hr.red, hr.green, hr.blue, hr.white, hr.det⟩

/-- C31: `Regular` says that the primaries are finite and linearly independent and that the current white point is finite. -/
theorem C31_white [FloatModel] [ExactModel] (ws : WhiteStore) (s : SpaceDef) (h : SpaceReach ws s) (P : Matrix (Fin 3) (Fin 3) ℝ) (w : Fin 3 → ℝ)
    (hr : SpaceDef.Regular ws s P w) : s.transform.mulVec [1, 1, 1] = ok [fin (w 0), fin (w 1), fin (w 2)] := by
  rw [(space_inv ws s h P w hr).1]
  have := Mat.mulVec_three (f := fin) Mat.emb_fin (SpaceDef.idealMat P w) ![1, 1, 1]
  rw [SpaceDef.idealMat_white P w hr.det] at this
  simpa using this

/-- C31: the columns of the transform are multiples of the chromaticities of the primaries. -/
theorem C31_primaries [FloatModel] [ExactModel] (ws : WhiteStore) (s : SpaceDef) (h : SpaceReach ws s) (P : Matrix (Fin 3) (Fin 3) ℝ) (w : Fin 3 → ℝ)
    (hr : SpaceDef.Regular ws s P w) : ∃ k : Fin 3 → ℝ, P.mulVec k = w ∧
      s.transform.mulVec [1, 0, 0] = ok [fin (k 0 * P 0 0), fin (k 0 * P 1 0), fin (k 0 * P 2 0)] ∧
      s.transform.mulVec [0, 1, 0] = ok [fin (k 1 * P 0 1), fin (k 1 * P 1 1), fin (k 1 * P 2 1)] ∧
      s.transform.mulVec [0, 0, 1] = ok [fin (k 2 * P 0 2), fin (k 2 * P 1 2), fin (k 2 * P 2 2)] := by
  rw [(space_inv ws s h P w hr).1]
  have col : ∀ i j : Fin 3, SpaceDef.idealMat P w i j = P⁻¹.mulVec w j * P i j := by
    intro i j; rw [SpaceDef.idealMat, Matrix.mul_diagonal, mul_comm]
  refine ⟨P⁻¹.mulVec w, ?_, ?_, ?_, ?_⟩
  · rw [Matrix.mulVec_mulVec, Matrix.mul_nonsing_inv _ (isUnit_iff_ne_zero.mpr hr.det), Matrix.one_mulVec]
  · have := Mat.mulVec_three (f := fin) Mat.emb_fin (SpaceDef.idealMat P w) ![1, 0, 0]
    simpa [Matrix.mulVec, dotProduct, Fin.sum_univ_three, col] using this
  · have := Mat.mulVec_three (f := fin) Mat.emb_fin (SpaceDef.idealMat P w) ![0, 1, 0]
    simpa [Matrix.mulVec, dotProduct, Fin.sum_univ_three, col] using this
  · have := Mat.mulVec_three (f := fin) Mat.emb_fin (SpaceDef.idealMat P w) ![0, 0, 1]
    simpa [Matrix.mulVec, dotProduct, Fin.sum_univ_three, col] using this

/-- C32: `k` are the weights of the primaries in the white point; none may vanish (otherwise the transform is singular). -/
theorem C32_inverse [FloatModel] [ExactModel] (ws : WhiteStore) (s : SpaceDef) (h : SpaceReach ws s) (P : Matrix (Fin 3) (Fin 3) ℝ) (w k : Fin 3 → ℝ)
    (hr : SpaceDef.Regular ws s P w) (hk : P.mulVec k = w) (hne : ∀ i, k i ≠ 0) :
    (∃ M N : Matrix (Fin 3) (Fin 3) ℝ, s.transform = Mat.ofMatrix fin M ∧ s.inverse = Mat.ofMatrix fin N ∧ M * N = 1 ∧ N * M = 1) ∧
    ∀ a b c : ℝ, (s.transform.mulVec [fin a, fin b, fin c] >>= fun v => s.inverse.mulVec v) = ok [fin a, fin b, fin c] ∧
      (s.inverse.mulVec [fin a, fin b, fin c] >>= fun v => s.transform.mulVec v) = ok [fin a, fin b, fin c] := by
  obtain ⟨h1, h2⟩ := space_inv ws s h P w hr
  have hkw : P⁻¹.mulVec w = k := by
    rw [← hk, Matrix.mulVec_mulVec, Matrix.nonsing_inv_mul _ (isUnit_iff_ne_zero.mpr hr.det), Matrix.one_mulVec]
  have hd : (SpaceDef.idealMat P w).det ≠ 0 := by
    rw [SpaceDef.idealMat_det, hkw]
    exact mul_ne_zero hr.det (mul_ne_zero (mul_ne_zero (hne 0) (hne 1)) (hne 2))
  rw [if_neg hd] at h2
  have u := isUnit_iff_ne_zero.mpr hd
  refine ⟨⟨_, _, h1, h2, Matrix.mul_nonsing_inv _ u, Matrix.nonsing_inv_mul _ u⟩, ?_⟩
  intro a b c
  rw [h1, h2]
  set M := SpaceDef.idealMat P w
  constructor
  · have e1 := Mat.mulVec_three (f := fin) Mat.emb_fin M ![a, b, c]
    have e2 := Mat.mulVec_three (f := fin) Mat.emb_fin M⁻¹ (M.mulVec ![a, b, c])
    rw [Matrix.mulVec_mulVec, Matrix.nonsing_inv_mul _ u, Matrix.one_mulVec] at e2
    simp only [Matrix.cons_val_zero, Matrix.cons_val_one, Matrix.cons_val] at e1 e2
    rw [e1, ok_bind, e2]
  · have e1 := Mat.mulVec_three (f := fin) Mat.emb_fin M⁻¹ ![a, b, c]
    have e2 := Mat.mulVec_three (f := fin) Mat.emb_fin M (M⁻¹.mulVec ![a, b, c])
    rw [Matrix.mulVec_mulVec, Matrix.mul_nonsing_inv _ u, Matrix.one_mulVec] at e2
    simp only [Matrix.cons_val_zero, Matrix.cons_val_one, Matrix.cons_val] at e1 e2
    rw [e1, ok_bind, e2]

/-- C32, the other side: when a weight vanishes the code stores the (singular) transform as its own inverse, without an error. -/
theorem C32_degenerate [FloatModel] [ExactModel] (ws : WhiteStore) (s : SpaceDef) (h : SpaceReach ws s) (P : Matrix (Fin 3) (Fin 3) ℝ) (w k : Fin 3 → ℝ)
    (hr : SpaceDef.Regular ws s P w) (hk : P.mulVec k = w) (i : Fin 3) (hi : k i = 0) : s.inverse = s.transform := by
  obtain ⟨h1, h2⟩ := space_inv ws s h P w hr
  have hkw : P⁻¹.mulVec w = k := by
    rw [← hk, Matrix.mulVec_mulVec, Matrix.nonsing_inv_mul _ (isUnit_iff_ne_zero.mpr hr.det), Matrix.one_mulVec]
  have hd : (SpaceDef.idealMat P w).det = 0 := by
    rw [SpaceDef.idealMat_det, hkw]
    fin_cases i <;> simp_all
  rw [h1, h2, if_pos hd]

open Classical in
/-- Construction with regular arguments succeeds. -/
theorem construct_regular [FloatModel] [ExactModel] (ws : WhiteStore) (rx ry gx gy bx byy : ℝ) (p : Nat) (g : Option Nat) (w : Fin 3 → ℝ)
    (hw : (ws p).tri = ⟨fin (w 0), fin (w 1), fin (w 2)⟩) (hd : (ccMat rx ry gx gy bx byy).det ≠ 0) :
    ∃ s, SpaceDef.construct ws (fin rx) (fin ry) (fin gx) (fin gy) (fin bx) (fin byy) (some p) g = ok s ∧
      SpaceDef.Regular ws s (ccMat rx ry gx gy bx byy) w ∧ s.gamma = g := by
  have hr : SpaceDef.Regular ws ⟨⟨fin rx, fin ry, 1 - fin rx - fin ry⟩, ⟨fin gx, fin gy, 1 - fin gx - fin gy⟩, ⟨fin bx, fin byy, 1 - fin bx - fin byy⟩,
      some p, .empty, .empty, g⟩ (ccMat rx ry gx gy bx byy) w := by
    refine ⟨?_, ?_, ?_, ⟨p, rfl, hw⟩, hd⟩ <;> simp [ccMat]
  refine ⟨(SpaceDef.recompute ws ⟨⟨fin rx, fin ry, 1 - fin rx - fin ry⟩, ⟨fin gx, fin gy, 1 - fin gx - fin gy⟩, ⟨fin bx, fin byy, 1 - fin bx - fin byy⟩,
      some p, .empty, .empty, g⟩).1, ?_, ?_, ?_⟩
  · unfold SpaceDef.construct
    simp only
    rw [SpaceDef.recompute_ok hr]
  · rw [SpaceDef.recompute_ok hr]
    exact ⟨hr.red, hr.green, hr.blue, hr.white, hr.det⟩
  · rw [SpaceDef.recompute_ok hr]

/-- sRGB primaries with an equal-energy white point meet all hypotheses of C31 and C32. -/
example [FloatModel] [ExactModel] : ∃ ws s P w k, SpaceReach ws s ∧ SpaceDef.Regular ws s P w ∧ P.mulVec k = w ∧ (∀ i, k i ≠ 0) := by
  have hd : (ccMat 0.64 0.33 0.3 0.6 0.15 0.06).det ≠ 0 := by
    rw [Matrix.det_fin_three]; simp [ccMat]; norm_num
  let k : Fin 3 → ℝ := ![1, 1, 1]
  let w := (ccMat 0.64 0.33 0.3 0.6 0.15 0.06).mulVec k
  obtain ⟨s, hs, hr, -⟩ := construct_regular (fun _ => ⟨⟨0, 0, 0⟩, ⟨fin (w 0), fin (w 1), fin (w 2)⟩⟩) 0.64 0.33 0.3 0.6 0.15 0.06 0 none w rfl hd
  refine ⟨_, s, _, w, k, .construct hs, hr, rfl, ?_⟩
  intro i; fin_cases i <;> simp [k]

/-! ## C86: preset white points -/

/-- Presets whose X is a factor of ten too small (`0.10985f` for `1.0985f` and so on). -/
def BadWhite (p : WhitePreset) : Prop :=
  p ∈ ([.A_2Degree, .E_2Degree, .F3_2Degree, .F4_2Degree, .F9_2Degree, .F11_2Degree, .F12_2Degree, .A_10Degree, .E_10Degree, .F2_10Degree,
    .F3_10Degree, .F4_10Degree, .F6_10Degree, .F9_10Degree, .F11_10Degree, .F12_10Degree] : List WhitePreset)

/-- C86 for the other 24 presets: the two descriptions agree up to the rounding of the published values. -/
theorem C86_presets_partial [FloatModel] [ExactModel] (p : WhitePreset) (h : ¬ BadWhite p) :
    ∃ X Y Z x y : ℝ, p.create = ⟨⟨fin x, fin y, fin (1 - x - y)⟩, ⟨fin X, fin Y, fin Z⟩⟩ ∧
      |X / (X + Y + Z) - x| ≤ 0.0002 ∧ |Y / (X + Y + Z) - y| ≤ 0.0002 ∧ |Z / (X + Y + Z) - (1 - x - y)| ≤ 0.0002 := by
  refine ⟨p.literals.1, p.literals.2.1, p.literals.2.2.1, p.literals.2.2.2.1, p.literals.2.2.2.2, ?_, ?_⟩
  · simp [WhitePreset.create, WhitePoint.make]
  · cases p <;> simp [BadWhite] at h <;> simp only [WhitePreset.literals] <;> refine ⟨?_, ?_, ?_⟩ <;> rw [abs_le] <;> constructor <;> norm_num

/-- C86 fails for 16 presets, by more than 0.2 in x. -/
theorem C86_violated [FloatModel] [ExactModel] (p : WhitePreset) (h : BadWhite p) :
    ∃ X Y Z x y : ℝ, p.create = ⟨⟨fin x, fin y, fin (1 - x - y)⟩, ⟨fin X, fin Y, fin Z⟩⟩ ∧ X / (X + Y + Z) - x < -0.2 := by
  refine ⟨p.literals.1, p.literals.2.1, p.literals.2.2.1, p.literals.2.2.2.1, p.literals.2.2.2.2, ?_, ?_⟩
  · simp [WhitePreset.create, WhitePoint.make]
  · cases p <;> simp [BadWhite] at h <;> simp only [WhitePreset.literals] <;> norm_num

example : ¬ BadWhite .D65_2Degree ∧ BadWhite .E_2Degree := by simp [BadWhite]

/-! ## C87: preset colour spaces -/

/-- The weights of the primaries in the white point, by Cramer's rule. -/
theorem weights_cramer (P : Matrix (Fin 3) (Fin 3) ℝ) (w : Fin 3 → ℝ) (hd : P.det ≠ 0) :
    P.mulVec (fun i => (P.updateCol i w).det / P.det) = w := by
  have h : (fun i => (P.updateCol i w).det / P.det) = P.det⁻¹ • P.cramer w := by
    funext i; simp [Matrix.cramer_apply, div_eq_inv_mul]
  rw [h, Matrix.mulVec_smul, Matrix.mulVec_cramer, smul_smul, inv_mul_cancel₀ hd, one_smul]

/-- The matrix of primaries of a preset. -/
noncomputable def presetPrimaries (p : SpacePreset) : Matrix (Fin 3) (Fin 3) ℝ :=
  ccMat p.primaries.1 p.primaries.2.1 p.primaries.2.2.1 p.primaries.2.2.2.1 p.primaries.2.2.2.2.1 p.primaries.2.2.2.2.2

/-- The tristimulus values of the white point of a preset. -/
noncomputable def presetWhite (p : SpacePreset) : Fin 3 → ℝ := ![p.white.literals.1, p.white.literals.2.1, p.white.literals.2.2.1]

theorem preset_det (p : SpacePreset) : 0 < (presetPrimaries p).det := by
  cases p <;> rw [Matrix.det_fin_three] <;> simp [presetPrimaries, ccMat, SpacePreset.primaries] <;> norm_num

theorem preset_create [FloatModel] [ExactModel] (p : SpacePreset) (ws : WhiteStore) (wp g : Nat) :
    ∃ s, p.create ws wp g = ok s ∧ SpaceReach (Function.update ws wp p.white.create) s ∧
      SpaceDef.Regular (Function.update ws wp p.white.create) s (presetPrimaries p) (presetWhite p) ∧ s.gamma = some g ∧ s.white = some wp := by
  obtain ⟨s, hs, hr, hg⟩ := construct_regular (Function.update ws wp p.white.create) p.primaries.1 p.primaries.2.1 p.primaries.2.2.1 p.primaries.2.2.2.1
    p.primaries.2.2.2.2.1 p.primaries.2.2.2.2.2 wp (some g) (presetWhite p) (by simp [WhitePreset.create, WhitePoint.make, presetWhite]) (preset_det p).ne'
  have hs' : p.create ws wp g = ok s := by simpa [SpacePreset.create] using hs
  refine ⟨s, hs', .construct hs, hr, hg, ?_⟩
  unfold SpaceDef.construct at hs
  simp only at hs
  split at hs
  · rename_i s' e
    obtain rfl := Outcome.ok_inj.mp hs
    have := (recompute_frame (Function.update ws wp p.white.create) _).2.2.2.symm.trans (by rw [e])
    exact this.symm
  · cases hs
  · cases hs

theorem preset_weights (p : SpacePreset) : (∀ i, ((presetPrimaries p).updateCol i (presetWhite p)).det ≠ 0) ∧
    (p ≠ .cieRGB → ∀ i, 0 < ((presetPrimaries p).updateCol i (presetWhite p)).det) := by
  cases p <;> refine ⟨fun i => ?_, fun h i => ?_⟩ <;> first
    | exact absurd rfl h
    | (fin_cases i <;> rw [Matrix.det_fin_three] <;>
        simp [presetPrimaries, presetWhite, ccMat, SpacePreset.primaries, SpacePreset.white, WhitePreset.literals, Matrix.updateCol_apply] <;> norm_num)

/-- C87 for all presets but cieRGB: the object can be created, white is mapped to the white point, the stored matrices are inverse to each other,
and every primary has positive weight. -/
theorem C87_presets_partial [FloatModel] [ExactModel] (p : SpacePreset) (hp : p ≠ .cieRGB) (ws : WhiteStore) (wp g : Nat) :
    ∃ s, p.create ws wp g = ok s ∧ s.transform.mulVec [1, 1, 1] = ok [p.white.create.tri.x, p.white.create.tri.y, p.white.create.tri.z] ∧
      (∀ a b c : ℝ, (s.transform.mulVec [fin a, fin b, fin c] >>= fun v => s.inverse.mulVec v) = ok [fin a, fin b, fin c]) ∧
      ∃ kr kg kb : ℝ, 0 < kr ∧ 0 < kg ∧ 0 < kb ∧
        s.transform.mulVec [1, 0, 0] = ok [fin (kr * p.primaries.1), fin (kr * p.primaries.2.1), fin (kr * (1 - p.primaries.1 - p.primaries.2.1))] ∧
        s.transform.mulVec [0, 1, 0] = ok [fin (kg * p.primaries.2.2.1), fin (kg * p.primaries.2.2.2.1), fin (kg * (1 - p.primaries.2.2.1 - p.primaries.2.2.2.1))] ∧
        s.transform.mulVec [0, 0, 1] = ok [fin (kb * p.primaries.2.2.2.2.1), fin (kb * p.primaries.2.2.2.2.2), fin (kb * (1 - p.primaries.2.2.2.2.1 - p.primaries.2.2.2.2.2))] := by
  obtain ⟨s, hs, hreach, hr, -⟩ := preset_create p ws wp g
  have hd := preset_det p
  have hw := weights_cramer _ (presetWhite p) hd.ne'
  obtain ⟨hne, hpos⟩ := preset_weights p
  have c31 := C31_white _ s hreach _ _ hr
  obtain ⟨k, hk, k0, k1, k2⟩ := C31_primaries _ s hreach _ _ hr
  have hk' : k = fun i => ((presetPrimaries p).updateCol i (presetWhite p)).det / (presetPrimaries p).det := by
    have u := isUnit_iff_ne_zero.mpr hd.ne'
    have := congrArg (presetPrimaries p)⁻¹.mulVec (hk.trans hw.symm)
    rwa [Matrix.mulVec_mulVec, Matrix.mulVec_mulVec, Matrix.nonsing_inv_mul _ u, Matrix.one_mulVec, Matrix.one_mulVec] at this
  refine ⟨s, hs, ?_, ?_, k 0, k 1, k 2, ?_, ?_, ?_, ?_, ?_, ?_⟩
  · rw [c31]; simp [WhitePreset.create, WhitePoint.make, presetWhite]
  · intro a b c
    exact ((C32_inverse _ s hreach _ _ _ hr hw (fun i => div_ne_zero (hne i) hd.ne')).2 a b c).1
  · rw [hk']; exact div_pos (hpos hp 0) hd
  · rw [hk']; exact div_pos (hpos hp 1) hd
  · rw [hk']; exact div_pos (hpos hp 2) hd
  · rw [k0]; simp [presetPrimaries, ccMat]
  · rw [k1]; simp [presetPrimaries, ccMat]
  · rw [k2]; simp [presetPrimaries, ccMat]

/-- C87 fails for cieRGB, whose white point (E, see C86) lies outside its gamut: linear red has negative X and Y. -/
theorem C87_violated [FloatModel] [ExactModel] (ws : WhiteStore) (wp g : Nat) :
    ∃ s X Y Z, SpacePreset.cieRGB.create ws wp g = ok s ∧ s.transform.mulVec [1, 0, 0] = ok [fin X, fin Y, fin Z] ∧ X < -0.3 ∧ Y < -0.1 := by
  obtain ⟨s, hs, hreach, hr, -⟩ := preset_create .cieRGB ws wp g
  have hd := preset_det .cieRGB
  have hw := weights_cramer _ (presetWhite .cieRGB) hd.ne'
  obtain ⟨k, hk, k0, -⟩ := C31_primaries _ s hreach _ _ hr
  have hk' : k = fun i => ((presetPrimaries .cieRGB).updateCol i (presetWhite .cieRGB)).det / (presetPrimaries .cieRGB).det := by
    have u := isUnit_iff_ne_zero.mpr hd.ne'
    have := congrArg (presetPrimaries .cieRGB)⁻¹.mulVec (hk.trans hw.symm)
    rwa [Matrix.mulVec_mulVec, Matrix.mulVec_mulVec, Matrix.nonsing_inv_mul _ u, Matrix.one_mulVec, Matrix.one_mulVec] at this
  have hv : k 0 < -0.45 := by
    rw [hk']
    simp only
    rw [div_lt_iff₀ hd, Matrix.det_fin_three, Matrix.det_fin_three]
    simp [presetPrimaries, presetWhite, ccMat, SpacePreset.primaries, SpacePreset.white, WhitePreset.literals, Matrix.updateCol_apply]
    norm_num
  refine ⟨s, _, _, _, hs, k0, ?_, ?_⟩ <;> simp [presetPrimaries, ccMat, SpacePreset.primaries] <;> linarith

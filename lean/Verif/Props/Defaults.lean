import Verif.Props.CieFormulas
import Mathlib.LinearAlgebra.Matrix.ToLinearEquiv

/-!
# Properties C137 and C138: rounding to decimals; default-constructed and degenerate colour spaces
-/

open Outcome Fl FormulaSpec Formula ConvSpec Hue

section
variable [FloatModel] [ExactModel]

/-! ## C137: `round_float_to_n_decimals` -/

theorem roundDecimals_eq (x : ℝ) (n : ℕ) : Leaf.roundDecimals (fin x) (fin n) =
    if -(2 : ℤ) ^ 31 ≤ truncR (x * 10 ^ n + 0.5) ∧ truncR (x * 10 ^ n + 0.5) < 2 ^ 31 then ok (fin (truncR (x * 10 ^ n + 0.5) / 10 ^ n)) else ub := by
  have e : powf (10 : Fl) (fin n) = fin (10 ^ n) := by
    have := ExactModel.powf_eq 10 n (Or.inl (by norm_num))
    rw [Real.rpow_natCast] at this
    rw [← this]
    rfl
  simp only [Leaf.roundDecimals, e, mul_exact, add_exact, rnd_exact]
  rw [div_exact _ _ (by positivity)]

/-- C137 for values from 0 on: the result is a multiple of the last decimal, at most half of it away.  Missing: negative values (`C137_violated`). -/
theorem C137_partial (x : ℝ) (n : ℕ) (h0 : 0 ≤ x) (h1 : x * 10 ^ n + 0.5 < 2 ^ 31) :
    ∃ k : ℤ, Leaf.roundDecimals (fin x) (fin n) = ok (fin (k / 10 ^ n)) ∧ |(k : ℝ) / 10 ^ n - x| ≤ 1 / 2 / 10 ^ n := by
  have hp : (0 : ℝ) < 10 ^ n := by positivity
  have hx : 0 ≤ x * 10 ^ n + 0.5 := by positivity
  have ht : truncR (x * 10 ^ n + 0.5) = ⌊x * 10 ^ n + 0.5⌋ := by rw [truncR, if_pos hx]
  refine ⟨⌊x * 10 ^ n + 0.5⌋, ?_, ?_⟩
  · rw [roundDecimals_eq, ht, if_pos]
    refine ⟨?_, Int.floor_lt.mpr (by push_cast; norm_num at h1 ⊢; exact h1)⟩
    have : (0 : ℤ) ≤ ⌊x * 10 ^ n + 0.5⌋ := Int.floor_nonneg.mpr hx
    linarith
  · have f1 := Int.floor_le (x * 10 ^ n + 0.5)
    have f2 := Int.lt_floor_add_one (x * 10 ^ n + 0.5)
    rw [div_sub' hp.ne', abs_div, abs_of_pos hp, div_le_div_iff_of_pos_right hp, abs_le]
    rw [show (0.5 : ℝ) = 1 / 2 by norm_num] at *
    constructor <;> linarith

/-- C137: what does not fit an `int` is undefined behaviour. -/
theorem C137_overflow (x : ℝ) (n : ℕ) (h : 2 ^ 31 + 2 ≤ |x| * 10 ^ n) : Leaf.roundDecimals (fin x) (fin n) = ub := by
  rw [roundDecimals_eq, if_neg]
  rintro ⟨h1, h2⟩
  rcases le_total 0 x with hx | hx
  · rw [abs_of_nonneg hx] at h
    have : 0 ≤ x * 10 ^ n + 0.5 := by positivity
    rw [truncR, if_pos this, Int.floor_lt] at h2
    push_cast at h2
    linarith
  · rw [abs_of_nonpos hx] at h
    have : ¬ 0 ≤ x * 10 ^ n + 0.5 := by rw [not_le]; linarith
    rw [truncR, if_neg this, Int.le_ceil_iff] at h1
    push_cast at h1
    linarith

/-- C137 fails for all negative values with the wanted number of decimals: they are changed, to the next decimal above. -/
theorem C137_violated (k : ℕ) (n : ℕ) (h0 : 0 < k) (h1 : k ≤ 2 ^ 31) : Leaf.roundDecimals (fin (-(k / 10 ^ n))) (fin n) = ok (fin (-((k - 1) / 10 ^ n))) := by
  have hp : (0 : ℝ) < 10 ^ n := by positivity
  have e : -((k : ℝ) / 10 ^ n) * 10 ^ n + 0.5 = -(k : ℝ) + 0.5 := by field_simp
  have hk : (1 : ℝ) ≤ k := by exact_mod_cast h0
  have ht : truncR (-(k : ℝ) + 0.5) = -(k : ℤ) + 1 := by
    rw [truncR, if_neg (by rw [not_le]; linarith), Int.ceil_eq_iff]
    push_cast
    constructor <;> norm_num
  rw [roundDecimals_eq, e, ht, if_pos]
  · push_cast; ring_nf
  · have : (k : ℤ) ≤ 2 ^ 31 := by exact_mod_cast h1
    constructor <;> omega

/-- Case: 3.14159 has a neighbour with two decimals; -2 becomes -1. -/
example : (∃ k : ℤ, Leaf.roundDecimals (fin 3.14159) (fin (2 : ℕ)) = ok (fin (k / 10 ^ 2)) ∧ |(k : ℝ) / 10 ^ 2 - 3.14159| ≤ 1 / 2 / 10 ^ 2) ∧
    Leaf.roundDecimals (fin (-2)) (fin (0 : ℕ)) = ok (fin (-1)) := by
  refine ⟨C137_partial 3.14159 2 (by norm_num) (by norm_num), ?_⟩
  have := C137_violated 2 0 (by norm_num) (by norm_num)
  norm_num at this ⊢
  exact this

/-! ## C138: default-constructed and degenerate objects -/

omit [ExactModel] in
/-- C138: a default-constructed part never applies, wherever it stands in a curve; a default-constructed curve changes nothing. -/
theorem C138_gamma (st : PartStore) (l l' : List (Option Nat)) (p : Nat) (hp : st p = GammaPart.default) (i : List (Option Nat)) (x : Fl) :
    (Gamma.mk (l ++ some p :: l') i).correct st x = (Gamma.mk (l ++ l') i).correct st x ∧ (Gamma.mk i (l ++ some p :: l')).inverse st x = (Gamma.mk i (l ++ l')).inverse st x ∧
      Gamma.empty.correct st x = x ∧ Gamma.empty.inverse st x = x := by
  have key : Gamma.pick st (l ++ some p :: l') x = Gamma.pick st (l ++ l') x := by
    induction l with
    | nil => simp [Gamma.pick, hp, GammaPart.default]
    | cons a l ih => cases a <;> simp [Gamma.pick, ih]
  exact ⟨key, key, rfl, rfl⟩

/-- A colour space made by the default constructor; its white point (at `wp`) and its curve (at `m`) are as they were made. -/
structure DefaultSpace (w : World) (s wp m : Nat) : Prop where
  space : w.spaces s = SpaceDef.default wp m
  white : w.whites wp = WhitePoint.zero
  gamma : w.gammas m = Gamma.empty

/-- C138: in a default-constructed colour space every RGB colour has the XYZ value of black, without any complaint. -/
theorem C138_default_to_xyz (w : World) (s wp m : Nat) (h : DefaultSpace w s wp m) (c : Color) (r g b : ℝ) (hc : IsRgb c r g b) (hs : c.space = some s) : Gives w c .xyz [0, 0, 0] := by
  refine gives_obj (s := .rgbDeep) (by simp) (by simp) (by simp) rfl rfl rfl hc.col ?_
  change Val.rgb_deep_to_xyz w c = _
  have he := rgb_eq hc
  generalize hal : c.malpha = al at he ⊢
  rw [he]
  have hm : (w.spaces s).gamma = some m := by rw [h.space]; rfl
  simp only [Val.rgb_deep_to_xyz, Leaf.inverseGamma, obj_space, World.space, hs, ok_bind, World.gamma, hm]
  have id : ∀ x, (w.gammas m).inverse w.parts x = x := by rw [h.gamma]; exact fun x => rfl
  rw [applyGamma_unit _ (id _) (id _) (id _) ⟨hc.r0, hc.r1⟩ ⟨hc.g0, hc.g1⟩ ⟨hc.b0, hc.b1⟩]
  simp only [Leaf.linear_to_xyz, obj_space, World.space, ok_bind]
  have hT : (w.spaces s).transform.mulVec (obj .rgbDeep r g b al (some s)).comps = ok [fin 0, fin 0, fin 0] := by
    rw [h.space, ← zero_def]; rfl
  rw [hT]
  simp only [ok_bind, Mat.vget, List.getElem?_cons_zero, List.getElem?_cons_succ, obj_alpha _ _ _ _ _ _ (rfl : Color.scalesAlpha .rgbDeep = false), Color.construct_xyz, Color.mkXyz,
    zero_def, lit_def, clamp_limit]
  simp [obj, Color.maxOf, Color.minOf, limit]

/-- C138: and every XYZ colour becomes black. -/
theorem C138_default_from_xyz (w : World) (s wp m : Nat) (h : DefaultSpace w s wp m) (c : Color) (x y z : ℝ) (hc : Is .xyz c [x, y, z]) (hs : c.space = some s) : Gives w c .rgbDeep [0, 0, 0] := by
  refine gives_obj (s := .xyz) (by simp) (by simp) (by simp) rfl rfl rfl hc.col ?_
  change Leaf.xyz_to_rgb_deep w c = _
  have hcomps : c.comps = [fin x, fin y, fin z] := hc.comps
  have hal : c.alpha = c.malpha := by simp [Color.alpha, hc.col.cls, Color.scalesAlpha]
  have hm : (w.spaces s).gamma = some m := by rw [h.space]; rfl
  have hT : (w.spaces s).inverse.mulVec [fin x, fin y, fin z] = ok [fin 0, fin 0, fin 0] := by
    rw [h.space, ← zero_def]; rfl
  have c0 : clip 0 = 0 := by simp [clip]
  simp only [Leaf.xyz_to_rgb_deep, World.space, hs, ok_bind, hcomps, hT, Mat.vget, List.getElem?_cons_zero, List.getElem?_cons_succ, Color.construct_rgbDeep, mkRgb_clip, hal, c0]
  have s0 : ∀ i < 3, (obj .rgbDeep 0 0 0 c.malpha (some s)).setChannel i (fin 0) = ok (obj .rgbDeep 0 0 0 c.malpha (some s)) := by
    intro i hi
    rcases i with _ | _ | _ | i <;> [skip; skip; skip; omega] <;> simp [obj, Color.setChannel, Color.setComponent, Color.setComponentLim, Color.maxOf, Color.minOf, Color.clamp_fin]
  simp only [obj_0, obj_1, obj_2, ok_bind, clampFloat_unit le_rfl zero_le_one, s0 0 (by norm_num), s0 1 (by norm_num), s0 2 (by norm_num)]
  simp only [Leaf.forwardGamma, obj_space, World.space, ok_bind, World.gamma, hm, h.gamma]
  simp only [Color.applyGamma, obj, List.map, Gamma.correct, Gamma.empty, Gamma.pick, Color.maxOf, Color.minOf, clamp_clip, c0]

/-- C138: with dependent primaries (three on a line, or two equal) the constructor succeeds, and the stored "inverse" is the transform itself, so that it undoes
the transform for no such space: there are two different linear RGB values with the same XYZ value. -/
theorem C138_degenerate (ws : WhiteStore) (wp m : Nat) (rx ry gx gy bx byy : ℝ) (u : Fin 3 → ℝ) (hw : (ws wp).tri = ⟨fin (u 0), fin (u 1), fin (u 2)⟩)
    (P : Matrix (Fin 3) (Fin 3) ℝ) (hP : P = !![rx, gx, bx; ry, gy, byy; 1 - rx - ry, 1 - gx - gy, 1 - bx - byy]) (hd : P.det = 0) :
    ∃ s, SpaceDef.construct ws (fin rx) (fin ry) (fin gx) (fin gy) (fin bx) (fin byy) (some wp) (some m) = ok s ∧ s.transform = s.inverse ∧
      (∃ X : Fin 3 → ℝ, X = P.mulVec (P.mulVec u) ∧ s.transform.mulVec [1, 1, 1] = ok [fin (X 0), fin (X 1), fin (X 2)]) ∧
      ∃ v : Fin 3 → ℝ, v ≠ 0 ∧ s.transform.mulVec [fin (v 0), fin (v 1), fin (v 2)] = ok [0, 0, 0] := by
  subst hP
  set P : Matrix (Fin 3) (Fin 3) ℝ := !![rx, gx, bx; ry, gy, byy; 1 - rx - ry, 1 - gx - gy, 1 - bx - byy] with hP
  set T := P * Matrix.diagonal (P.mulVec u) with hT
  have hTd : T.det = 0 := by rw [hT, Matrix.det_mul, hd, zero_mul]
  have hcalc : SpaceDef.calcMatrix ⟨fin rx, fin ry, fin (1 - rx - ry)⟩ ⟨fin gx, fin gy, fin (1 - gx - gy)⟩ ⟨fin bx, fin byy, fin (1 - bx - byy)⟩ ⟨fin (u 0), fin (u 1), fin (u 2)⟩ =
      ok (Mat.ofMatrix fin T) := by
    unfold SpaceDef.calcMatrix
    simp only
    rw [Mat.ofSquareList_three, ← hP, ok_bind, Mat.invert_singular Mat.emb_fin _ hd, ok_bind, Mat.mulVec_three Mat.emb_fin, ok_bind]
    set t := P.mulVec u with ht
    simp only [Mat.vget, List.getElem?_cons_zero, List.getElem?_cons_succ, ok_bind]
    rw [zero_def, Mat.ofSquareList_three, ok_bind, Mat.mul_square Mat.emb_fin]
    congr 3
    ext i j; fin_cases i <;> fin_cases j <;> rfl
  refine ⟨⟨⟨fin rx, fin ry, fin (1 - rx - ry)⟩, ⟨fin gx, fin gy, fin (1 - gx - gy)⟩, ⟨fin bx, fin byy, fin (1 - bx - byy)⟩, some wp, Mat.ofMatrix fin T, Mat.ofMatrix fin T, some m⟩, ?_, rfl, ?_, ?_⟩
  · simp only [SpaceDef.construct, SpaceDef.recompute, one_def, sub_exact, hw, hcalc, Mat.assign_ok, Mat.invert_singular Mat.emb_fin _ hTd]
  · refine ⟨_, rfl, ?_⟩
    have h1 := Mat.mulVec_three (f := fin) Mat.emb_fin T (fun _ => 1)
    have h2 : T.mulVec (fun _ => 1) = P.mulVec (P.mulVec u) := by
      rw [hT, ← Matrix.mulVec_mulVec]
      congr 1
      funext i
      rw [Matrix.mulVec_diagonal, mul_one]
    rw [h2, ← one_def] at h1
    exact h1
  · obtain ⟨v, hv, hv0⟩ := Matrix.exists_mulVec_eq_zero_iff.mpr hTd
    refine ⟨v, hv, ?_⟩
    have := Mat.mulVec_three (f := fin) Mat.emb_fin T v
    rw [hv0] at this
    rw [zero_def]
    exact this

/-- C138: replacing the white point of a default-constructed space does not help: the transform stays zero. -/
theorem C138_set_white (ws : WhiteStore) (wp m t : Nat) (u : Fin 3 → ℝ) (hw : (ws t).tri = ⟨fin (u 0), fin (u 1), fin (u 2)⟩) :
    ∃ d, (SpaceDef.default wp m).setWhitePoint ws (some t) = (d, ok ()) ∧ ∀ r g b : ℝ, d.transform.mulVec [fin r, fin g, fin b] = ok [0, 0, 0] ∧ d.inverse.mulVec [fin r, fin g, fin b] = ok [0, 0, 0] := by
  have h0 : (0 : Matrix (Fin 3) (Fin 3) ℝ) = !![0, 0, 0; 0, 0, 0; 0, 0, 0] := by ext i j; fin_cases i <;> fin_cases j <;> rfl
  have hd : (0 : Matrix (Fin 3) (Fin 3) ℝ).det = 0 := by simp
  have hcalc : SpaceDef.calcMatrix ⟨0, 0, 0⟩ ⟨0, 0, 0⟩ ⟨0, 0, 0⟩ ⟨fin (u 0), fin (u 1), fin (u 2)⟩ = ok (Mat.ofMatrix fin (0 : Matrix (Fin 3) (Fin 3) ℝ)) := by
    unfold SpaceDef.calcMatrix
    simp only [zero_def]
    rw [Mat.ofSquareList_three, ← h0, ok_bind, Mat.invert_singular Mat.emb_fin _ hd, ok_bind, Mat.mulVec_three Mat.emb_fin, ok_bind]
    simp only [Mat.vget, List.getElem?_cons_zero, List.getElem?_cons_succ, ok_bind]
    rw [Mat.ofSquareList_three, ok_bind, Mat.mul_square Mat.emb_fin, zero_mul]
  refine ⟨⟨⟨0, 0, 0⟩, ⟨0, 0, 0⟩, ⟨0, 0, 0⟩, some t, Mat.ofMatrix fin (0 : Matrix (Fin 3) (Fin 3) ℝ), Mat.ofMatrix fin (0 : Matrix (Fin 3) (Fin 3) ℝ), some m⟩, ?_, fun r g b => ?_⟩
  · simp only [SpaceDef.setWhitePoint, SpaceDef.recompute, SpaceDef.default, hw, hcalc, Mat.assign_ok, Mat.invert_singular Mat.emb_fin _ hd]
  · have := Mat.mulVec_three (f := fin) Mat.emb_fin (0 : Matrix (Fin 3) (Fin 3) ℝ) ![r, g, b]
    rw [Matrix.zero_mulVec] at this
    rw [zero_def]
    exact ⟨this, this⟩

/-- Case: orange in a default-constructed space. -/
example : ∃ w : World, DefaultSpace w 0 0 0 ∧ Gives w (rgbOf 1 (1 / 2) 0 1 (some 0)) .xyz [0, 0, 0] := by
  have h : DefaultSpace ⟨fun _ => GammaPart.default, fun _ => Gamma.empty, fun _ => WhitePoint.zero, fun _ => SpaceDef.default 0 0⟩ 0 0 0 := ⟨rfl, rfl, rfl⟩
  exact ⟨_, h, C138_default_to_xyz _ 0 0 0 h _ 1 (1 / 2) 0 (isRgb_rgbOf _ _ (by norm_num)) rfl⟩

/-- Case: the primaries (0.2, 0.2), (0.3, 0.3) and (0.4, 0.4) lie on a line. -/
example : (!![0.2, 0.3, 0.4; 0.2, 0.3, 0.4; 1 - 0.2 - 0.2, 1 - 0.3 - 0.3, 1 - 0.4 - 0.4] : Matrix (Fin 3) (Fin 3) ℝ).det = 0 := by
  rw [Matrix.det_fin_three]; simp; norm_num

end

import Verif.SpaceDef
import Verif.MatrixLemmas
import Mathlib.LinearAlgebra.Matrix.Notation
import Mathlib.LinearAlgebra.Matrix.Determinant.Basic
import Mathlib.LinearAlgebra.Matrix.NonsingularInverse
import Mathlib.Tactic.FieldSimp
import Mathlib.Tactic.FinCases

/-! Helper lemmas about RGB colour space definitions. -/

open Outcome Fl

namespace Mat

theorem ofSquareList_three {K : Type} [Elem K] {R : Type} (f : R → K) (a b c d e g h i j : R) :
    ofSquareList 3 [f a, f b, f c, f d, f e, f g, f h, f i, f j] = ok (ofMatrix f !![a, b, c; d, e, g; h, i, j]) := by
  rfl

variable {R K : Type} [Field R] [Elem K] {f : R → K}

theorem mulVec_three (hf : Emb f) (M : Matrix (Fin 3) (Fin 3) R) (v : Fin 3 → R) :
    (ofMatrix f M).mulVec [f (v 0), f (v 1), f (v 2)] = ok [f (M.mulVec v 0), f (M.mulVec v 1), f (M.mulVec v 2)] := by
  have hv : [f (v 0), f (v 1), f (v 2)] = List.ofFn fun j => f (v j) := by simp [List.ofFn_succ]
  rw [hv, mulVec_ok hf M v le_rfl]
  simp [List.ofFn_succ]

theorem mul_square (hf : Emb f) {n : ℕ} (A B : Matrix (Fin n) (Fin n) R) :
    (ofMatrix f A).mul (ofMatrix f B) = ok (ofMatrix f (A * B)) := by
  rw [mul_ok hf A B le_rfl le_rfl]; rfl

theorem invert_singular (hf : Emb f) {n : ℕ} (M : Matrix (Fin (n + 1)) (Fin (n + 1)) R) (h : M.det = 0) :
    (ofMatrix f M).invert = ok (ofMatrix f M) := by
  unfold invert
  rw [det_ok hf, ok_bind, if_pos]
  rw [h, ← hf.zero, hf.same]

end Mat

/-- A finite `std::array<float, 3>`. -/
def V3.ofReal (x y z : ℝ) : V3 := ⟨fin x, fin y, fin z⟩

/-- The matrix whose columns are the chromaticities of the primaries. -/
def ccMat (rx ry gx gy bx byy : ℝ) : Matrix (Fin 3) (Fin 3) ℝ :=
  !![rx, gx, bx; ry, gy, byy; 1 - rx - ry, 1 - gx - gy, 1 - bx - byy]

namespace SpaceDef
variable [FloatModel] [ExactModel]

theorem calcMatrix_ok (M : Matrix (Fin 3) (Fin 3) ℝ) (w : Fin 3 → ℝ) (hM : M.det ≠ 0) :
    calcMatrix ⟨fin (M 0 0), fin (M 1 0), fin (M 2 0)⟩ ⟨fin (M 0 1), fin (M 1 1), fin (M 2 1)⟩ ⟨fin (M 0 2), fin (M 1 2), fin (M 2 2)⟩
      ⟨fin (w 0), fin (w 1), fin (w 2)⟩ = ok (Mat.ofMatrix fin (M * Matrix.diagonal (M⁻¹.mulVec w))) := by
  have e : (!![M 0 0, M 0 1, M 0 2; M 1 0, M 1 1, M 1 2; M 2 0, M 2 1, M 2 2] : Matrix (Fin 3) (Fin 3) ℝ) = M := by
    ext i j; fin_cases i <;> fin_cases j <;> rfl
  unfold calcMatrix
  simp only
  rw [Mat.ofSquareList_three, e, ok_bind, Mat.invert_ok Mat.emb_fin M hM, ok_bind, Mat.mulVec_three Mat.emb_fin, ok_bind]
  set t := M⁻¹.mulVec w with ht
  simp only [Mat.vget, List.getElem?_cons_zero, List.getElem?_cons_succ, ok_bind]
  have z : (0 : Fl) = fin 0 := zero_def
  rw [z, Mat.ofSquareList_three, ok_bind, Mat.mul_square Mat.emb_fin]
  congr 3
  ext i j; fin_cases i <;> fin_cases j <;> rfl

/-- Finite, linearly independent primaries and a finite white point. -/
structure Regular (ws : WhiteStore) (s : SpaceDef) (P : Matrix (Fin 3) (Fin 3) ℝ) (w : Fin 3 → ℝ) : Prop where
  red : s.red = ⟨fin (P 0 0), fin (P 1 0), fin (P 2 0)⟩
  green : s.green = ⟨fin (P 0 1), fin (P 1 1), fin (P 2 1)⟩
  blue : s.blue = ⟨fin (P 0 2), fin (P 1 2), fin (P 2 2)⟩
  white : ∃ p, s.white = some p ∧ (ws p).tri = ⟨fin (w 0), fin (w 1), fin (w 2)⟩
  det : P.det ≠ 0

/-- The transform the definition should store. -/
noncomputable def idealMat (P : Matrix (Fin 3) (Fin 3) ℝ) (w : Fin 3 → ℝ) : Matrix (Fin 3) (Fin 3) ℝ := P * Matrix.diagonal (P⁻¹.mulVec w)

open Classical in
theorem recompute_ok {ws : WhiteStore} {s : SpaceDef} {P : Matrix (Fin 3) (Fin 3) ℝ} {w : Fin 3 → ℝ} (h : Regular ws s P w) :
    recompute ws s = ({ s with transform := Mat.ofMatrix fin (idealMat P w),
                               inverse := Mat.ofMatrix fin (if (idealMat P w).det = 0 then idealMat P w else (idealMat P w)⁻¹) }, ok ()) := by
  obtain ⟨p, hp, hw⟩ := h.white
  unfold recompute
  rw [hp]
  simp only
  rw [hw, h.red, h.green, h.blue, calcMatrix_ok P w h.det]
  simp only [Mat.assign_ok]
  change (match (Mat.ofMatrix fin (idealMat P w)).invert with
    | .ub => _
    | .throw e => _
    | .ok i => _) = _
  by_cases hd : (idealMat P w).det = 0
  · rw [Mat.invert_singular Mat.emb_fin _ hd, if_pos hd]
    simp only [Mat.assign_ok, hp]
    rfl
  · rw [Mat.invert_ok Mat.emb_fin _ hd, if_neg hd]
    simp only [Mat.assign_ok, hp]
    rfl

theorem idealMat_white (P : Matrix (Fin 3) (Fin 3) ℝ) (w : Fin 3 → ℝ) (h : P.det ≠ 0) : (idealMat P w).mulVec ![1, 1, 1] = w := by
  unfold idealMat
  rw [← Matrix.mulVec_mulVec]
  have : (Matrix.diagonal (P⁻¹.mulVec w)).mulVec ![1, 1, 1] = P⁻¹.mulVec w := by
    ext i; rw [Matrix.mulVec_diagonal]; fin_cases i <;> simp
  rw [this, Matrix.mulVec_mulVec, Matrix.mul_nonsing_inv _ (isUnit_iff_ne_zero.mpr h), Matrix.one_mulVec]

theorem idealMat_det (P : Matrix (Fin 3) (Fin 3) ℝ) (w : Fin 3 → ℝ) :
    (idealMat P w).det = P.det * (P⁻¹.mulVec w 0 * P⁻¹.mulVec w 1 * P⁻¹.mulVec w 2) := by
  unfold idealMat
  rw [Matrix.det_mul, Matrix.det_diagonal, Fin.prod_univ_three]

end SpaceDef

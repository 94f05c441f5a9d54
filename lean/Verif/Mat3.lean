import Verif.SpaceLemmas
import Verif.FineError
import Mathlib.LinearAlgebra.Matrix.Adjugate
import Mathlib.Tactic.Positivity

/-!
# Errors of the 3 × 3 matrix operations

What `matrix<float>` computes for a 3 × 3 matrix, written out, and how far it is from the exact result.
-/

open Outcome Fl

namespace Mat
variable {K : Type} [Elem K]

/-- A 3 × 3 matrix. -/
def mat3 (m : Fin 3 → Fin 3 → K) : Mat K := ⟨3, 3, [[m 0 0, m 0 1, m 0 2], [m 1 0, m 1 1, m 1 2], [m 2 0, m 2 1, m 2 2]]⟩

/-- The 2 × 2 determinant as it is computed. -/
def d2 (a b c d : K) : K := 0 + 1 * a * d + Elem.neg1 * b * c

/-- The 3 × 3 determinant as it is computed. -/
def d3 (m : Fin 3 → Fin 3 → K) : K :=
  0 + 1 * m 0 0 * d2 (m 1 1) (m 1 2) (m 2 1) (m 2 2) + Elem.neg1 * m 0 1 * d2 (m 1 0) (m 1 2) (m 2 0) (m 2 2) + 1 * m 0 2 * d2 (m 1 0) (m 1 1) (m 2 0) (m 2 1)

/-- The adjoint as it is computed. -/
def adj3 (m : Fin 3 → Fin 3 → K) : Fin 3 → Fin 3 → K :=
  ![![1 * d2 (m 1 1) (m 1 2) (m 2 1) (m 2 2), Elem.neg1 * d2 (m 0 1) (m 0 2) (m 2 1) (m 2 2), 1 * d2 (m 0 1) (m 0 2) (m 1 1) (m 1 2)],
    ![Elem.neg1 * d2 (m 1 0) (m 1 2) (m 2 0) (m 2 2), 1 * d2 (m 0 0) (m 0 2) (m 2 0) (m 2 2), Elem.neg1 * d2 (m 0 0) (m 0 2) (m 1 0) (m 1 2)],
    ![1 * d2 (m 1 0) (m 1 1) (m 2 0) (m 2 1), Elem.neg1 * d2 (m 0 0) (m 0 1) (m 2 0) (m 2 1), 1 * d2 (m 0 0) (m 0 1) (m 1 0) (m 1 1)]]

theorem calcDet_mat3 (m : Fin 3 → Fin 3 → K) : calcDet 3 (mat3 m).vals = ok (d3 m) := rfl

theorem adjoint_mat3 (m : Fin 3 → Fin 3 → K) : (mat3 m).adjoint = ok (mat3 (adj3 m)) := rfl

theorem mulVec_mat3 (m : Fin 3 → Fin 3 → K) (x y z : K) :
    (mat3 m).mulVec [x, y, z] = ok [0 + m 0 0 * x + m 0 1 * y + m 0 2 * z, 0 + m 1 0 * x + m 1 1 * y + m 1 2 * z, 0 + m 2 0 * x + m 2 1 * y + m 2 2 * z] := rfl

theorem mul_mat3 (m n : Fin 3 → Fin 3 → K) : (mat3 m).mul (mat3 n) = ok (mat3 fun i j => 0 + m i 0 * n 0 j + m i 1 * n 1 j + m i 2 * n 2 j) := rfl

theorem ofSquareList_mat3 (a b c d e f g h i : K) : ofSquareList 3 [a, b, c, d, e, f, g, h, i] = ok (mat3 ![![a, b, c], ![d, e, f], ![g, h, i]]) := rfl

omit [Elem K] in
theorem assign_mat3 (o : Mat K) (m : Fin 3 → Fin 3 → K) : o.assign (mat3 m) = ok (mat3 m) := rfl

open Classical in
theorem all3 {α : Type} (p : α → Outcome Bool) (x y z : α) (P Q R : Prop) (hx : p x = ok (decide P)) (hy : p y = ok (decide Q)) (hz : p z = ok (decide R)) (h : ¬ (P ∧ Q ∧ R)) :
    allM p [x, y, z] = ok false := by
  by_cases hP : P <;> by_cases hQ : Q <;> by_cases hR : R <;> simp_all [allM]

theorem any3 {α : Type} (p : α → Outcome Bool) (x y z : α) (hx : p x = ok false) (hy : p y = ok false) (hz : p z = ok false) :
    anyM p [x, y, z] = ok false := by
  simp [anyM, hx, hy, hz]

theorem any2 {α : Type} (p : α → Outcome Bool) (x y : α) (hx : p x = ok false) (hy : p y = ok false) : anyM p [x, y] = ok false := by
  simp [anyM, hx, hy]

theorem any1 {α : Type} (p : α → Outcome Bool) (x : α) (hx : p x = ok false) : anyM p [x] = ok false := by
  simp [anyM, hx]

/-- No row and no column is null, no two are equal. -/
structure Good (m : Fin 3 → Fin 3 → K) : Prop where
  row : ∀ i, ¬ (Elem.same (m i 0) 0 ∧ Elem.same (m i 1) 0 ∧ Elem.same (m i 2) 0)
  col : ∀ j, ¬ (Elem.same (m 0 j) 0 ∧ Elem.same (m 1 j) 0 ∧ Elem.same (m 2 j) 0)
  rows : ∀ i j, i ≠ j → ¬ (Elem.same (m i 0) (m j 0) ∧ Elem.same (m i 1) (m j 1) ∧ Elem.same (m i 2) (m j 2))
  cols : ∀ i j, i ≠ j → ¬ (Elem.same (m 0 i) (m 0 j) ∧ Elem.same (m 1 i) (m 1 j) ∧ Elem.same (m 2 i) (m 2 j))

theorem det_mat3 (m : Fin 3 → Fin 3 → K) (H : Good m) : (mat3 m).det = ok (d3 m) := by
  have rows : anyM (fun r => (mat3 m).isRowNull r) ((List.range 3).map Int.ofNat) = ok false :=
    any3 _ _ _ _ (all3 _ _ _ _ _ _ _ rfl rfl rfl (H.row 0)) (all3 _ _ _ _ _ _ _ rfl rfl rfl (H.row 1)) (all3 _ _ _ _ _ _ _ rfl rfl rfl (H.row 2))
  have cols : anyM (fun r => (mat3 m).isColumnNull r) ((List.range 3).map Int.ofNat) = ok false :=
    any3 _ _ _ _ (all3 _ _ _ _ _ _ _ rfl rfl rfl (H.col 0)) (all3 _ _ _ _ _ _ _ rfl rfl rfl (H.col 1)) (all3 _ _ _ _ _ _ _ rfl rfl rfl (H.col 2))
  have rr : anyM (fun (k : Nat) => anyM (fun (j : Nat) => (mat3 m).areRowsEqual k j) (List.range' (k + 1) (3 - (k + 1)))) (List.range 3) = ok false :=
    any3 _ _ _ _ (any2 _ _ _ (all3 _ _ _ _ _ _ _ rfl rfl rfl (H.rows 0 1 (by decide))) (all3 _ _ _ _ _ _ _ rfl rfl rfl (H.rows 0 2 (by decide))))
      (any1 _ _ (all3 _ _ _ _ _ _ _ rfl rfl rfl (H.rows 1 2 (by decide)))) rfl
  have cr : anyM (fun (k : Nat) => anyM (fun (j : Nat) => (mat3 m).areColumnsEqual k j) (List.range' (k + 1) (3 - (k + 1)))) (List.range 3) = ok false :=
    any3 _ _ _ _ (any2 _ _ _ (all3 _ _ _ _ _ _ _ rfl rfl rfl (H.cols 0 1 (by decide))) (all3 _ _ _ _ _ _ _ rfl rfl rfl (H.cols 0 2 (by decide))))
      (any1 _ _ (all3 _ _ _ _ _ _ _ rfl rfl rfl (H.cols 1 2 (by decide)))) rfl
  unfold det
  rw [if_neg (by simp [mat3]), if_neg (by simp [mat3])]
  simp only [show (mat3 m).rows.toNat = 3 from rfl]
  rw [rows, ok_bind, if_neg (by simp), cols, ok_bind, if_neg (by simp), rr, ok_bind, if_neg (by simp), cr, ok_bind, if_neg (by simp)]
  rfl

theorem invert_mat3 (m : Fin 3 → Fin 3 → K) (H : Good m) (hne : ¬ Elem.same (d3 m) 0) : (mat3 m).invert = ok (mat3 fun i j => adj3 m i j / d3 m) := by
  unfold invert
  rw [det_mat3 m H, ok_bind, if_neg hne, adjoint_mat3, ok_bind]
  rfl

end Mat

namespace Fl

/-- The permanent: the determinant with all signs positive. -/
def perm3 (B : Fin 3 → Fin 3 → ℝ) : ℝ :=
  B 0 0 * (B 1 1 * B 2 2 + B 1 2 * B 2 1) + B 0 1 * (B 1 0 * B 2 2 + B 1 2 * B 2 0) + B 0 2 * (B 1 0 * B 2 1 + B 1 1 * B 2 0)

/-- The adjoint with all signs positive. -/
def padj (B : Fin 3 → Fin 3 → ℝ) : Fin 3 → Fin 3 → ℝ :=
  ![![B 1 1 * B 2 2 + B 1 2 * B 2 1, B 0 1 * B 2 2 + B 0 2 * B 2 1, B 0 1 * B 1 2 + B 0 2 * B 1 1],
    ![B 1 0 * B 2 2 + B 1 2 * B 2 0, B 0 0 * B 2 2 + B 0 2 * B 2 0, B 0 0 * B 1 2 + B 0 2 * B 1 0],
    ![B 1 0 * B 2 1 + B 1 1 * B 2 0, B 0 0 * B 2 1 + B 0 1 * B 2 0, B 0 0 * B 1 1 + B 0 1 * B 1 0]]

/-- The exact adjoint. -/
def radj (A : Fin 3 → Fin 3 → ℝ) : Fin 3 → Fin 3 → ℝ :=
  ![![A 1 1 * A 2 2 - A 1 2 * A 2 1, -(A 0 1 * A 2 2 - A 0 2 * A 2 1), A 0 1 * A 1 2 - A 0 2 * A 1 1],
    ![-(A 1 0 * A 2 2 - A 1 2 * A 2 0), A 0 0 * A 2 2 - A 0 2 * A 2 0, -(A 0 0 * A 1 2 - A 0 2 * A 1 0)],
    ![A 1 0 * A 2 1 - A 1 1 * A 2 0, -(A 0 0 * A 2 1 - A 0 1 * A 2 0), A 0 0 * A 1 1 - A 0 1 * A 1 0]]

/-- The exact determinant. -/
def rdet (A : Fin 3 → Fin 3 → ℝ) : ℝ :=
  A 0 0 * (A 1 1 * A 2 2 - A 1 2 * A 2 1) - A 0 1 * (A 1 0 * A 2 2 - A 1 2 * A 2 0) + A 0 2 * (A 1 0 * A 2 1 - A 1 1 * A 2 0)

theorem rdet_eq (A : Matrix (Fin 3) (Fin 3) ℝ) : rdet A = A.det := by
  rw [Matrix.det_fin_three]; unfold rdet; ring

theorem radj_eq (A : Matrix (Fin 3) (Fin 3) ℝ) (i j : Fin 3) : radj A i j = A.adjugate i j := by
  rw [Matrix.adjugate_fin_three]
  fin_cases i <;> fin_cases j <;> simp [radj] <;> ring

theorem inv_eq (A : Matrix (Fin 3) (Fin 3) ℝ) (i j : Fin 3) : radj A i j / rdet A = A⁻¹ i j := by
  rw [Matrix.inv_def, Matrix.smul_apply, radj_eq, rdet_eq, Ring.inverse_eq_inv', smul_eq_mul, div_eq_inv_mul]

variable [FloatModel]

theorem good_of_det (m : Fin 3 → Fin 3 → ℝ) (h : rdet m ≠ 0) : Mat.Good fun i j => fin (m i j) := by
  have s : ∀ x y : ℝ, Elem.same (fin x) (fin y) ↔ x = y := fun x y => feq_fin
  constructor
  · rintro i ⟨h1, h2, h3⟩
    rw [zero_def, s] at h1 h2 h3
    apply h; unfold rdet
    fin_cases i <;> simp only [Fin.zero_eta, Fin.mk_one, Fin.reduceFinMk] at h1 h2 h3 <;> rw [h1, h2, h3] <;> ring
  · rintro i ⟨h1, h2, h3⟩
    rw [zero_def, s] at h1 h2 h3
    apply h; unfold rdet
    fin_cases i <;> simp only [Fin.zero_eta, Fin.mk_one, Fin.reduceFinMk] at h1 h2 h3 <;> rw [h1, h2, h3] <;> ring
  · rintro i j hij ⟨h1, h2, h3⟩
    rw [s] at h1 h2 h3
    apply h; unfold rdet
    fin_cases i <;> fin_cases j <;> first | exact absurd rfl hij | (simp only [Fin.zero_eta, Fin.mk_one, Fin.reduceFinMk] at h1 h2 h3; rw [h1, h2, h3]; ring)
  · rintro i j hij ⟨h1, h2, h3⟩
    rw [s] at h1 h2 h3
    apply h; unfold rdet
    fin_cases i <;> fin_cases j <;> first | exact absurd rfl hij | (simp only [Fin.zero_eta, Fin.mk_one, Fin.reduceFinMk] at h1 h2 h3; rw [h1, h2, h3]; ring)

/-- A magnitude of ordinary size. -/
def Mid (B : ℝ) : Prop := 1e-4 ≤ B ∧ B ≤ 2

variable [FineError]

theorem appr_d2 {a b c d : Fl} {ra rb rc rd A B C D k l : ℝ} (ha : Appr a ra A k) (hb : Appr b rb B k) (hc : Appr c rc C l) (hd : Appr d rd D l)
    (mA : Mid A) (mB : Mid B) (mC : Mid C) (mD : Mid D) (hkl : k + l ≤ 500) :
    Appr (Mat.d2 a b c d) (ra * rd - rb * rc) (A * D + B * C) (k + l + 4.2) ∧ 1e-8 ≤ A * D + B * C ∧ A * D + B * C ≤ 8 := by
  obtain ⟨A0, A1⟩ := mA; obtain ⟨B0, B1⟩ := mB; obtain ⟨C0, C1⟩ := mC; obtain ⟨D0, D1⟩ := mD
  have k0 := ha.k0; have l0 := hc.k0
  have p1 : 1e-8 ≤ A * D := by norm_num at *; nlinarith
  have p2 : A * D ≤ 4 := by norm_num at *; nlinarith
  have p3 : 1e-8 ≤ B * C := by norm_num at *; nlinarith
  have p4 : B * C ≤ 4 := by norm_num at *; nlinarith
  norm_num at A0 B0 p1 p3
  have e1 := ((ha.one_mul (by linarith) (by norm_num; linarith) (by linarith)).mul hd (by linarith) (by linarith) (by norm_num; linarith) (by linarith)).zero_add
    (by norm_num; linarith) (by norm_num; linarith) (by linarith)
  have e2 := (hb.neg_mul (by linarith) (by norm_num; linarith) (by linarith)).mul hc (by linarith) (by linarith) (by norm_num; linarith) (by linarith)
  have e3 := e1.add e2 (k + l + 3.2) (by norm_num; linarith) (by norm_num; linarith) (by norm_num; linarith) (by norm_num; linarith) (by linarith)
  refine ⟨?_, by norm_num; linarith, by linarith⟩
  have : Appr (Mat.d2 a b c d) (ra * rd + -rb * rc) (A * D + B * C) (k + l + 3.2 + 1) := e3
  convert this using 1
  · ring
  · norm_num; ring

/-- Approximations of the entries of a matrix, row by row. -/
def ApprMat (M : Fin 3 → Fin 3 → Fl) (A B : Fin 3 → Fin 3 → ℝ) (k : Fin 3 → ℝ) : Prop := ∀ i j, Appr (M i j) (A i j) (B i j) (k i) ∧ Mid (B i j)

theorem appr_d3 {M : Fin 3 → Fin 3 → Fl} {A B : Fin 3 → Fin 3 → ℝ} {k : Fin 3 → ℝ} (h : ApprMat M A B k) (hk : k 0 + k 1 + k 2 ≤ 400) :
    Appr (Mat.d3 M) (rdet A) (perm3 B) (k 0 + k 1 + k 2 + 9.4) ∧ 1e-12 ≤ perm3 B := by
  have h00 := h 0 0; have h01 := h 0 1; have h02 := h 0 2
  have h10 := h 1 0; have h11 := h 1 1; have h12 := h 1 2
  have h20 := h 2 0; have h21 := h 2 1; have h22 := h 2 2
  have k0 := h00.1.k0; have k1 := h10.1.k0; have k2 := h20.1.k0
  obtain ⟨d1, l1, u1⟩ := appr_d2 h11.1 h12.1 h21.1 h22.1 h11.2 h12.2 h21.2 h22.2 (by linarith)
  obtain ⟨d2, l2, u2⟩ := appr_d2 h10.1 h12.1 h20.1 h22.1 h10.2 h12.2 h20.2 h22.2 (by linarith)
  obtain ⟨d3, l3, u3⟩ := appr_d2 h10.1 h11.1 h20.1 h21.1 h10.2 h11.2 h20.2 h21.2 (by linarith)
  obtain ⟨A0, A1⟩ := h00.2; obtain ⟨B0, B1⟩ := h01.2; obtain ⟨C0, C1⟩ := h02.2
  norm_num at A0 B0 C0 l1 l2 l3
  have p1 : 1 / 1000000000000 ≤ B 0 0 * (B 1 1 * B 2 2 + B 1 2 * B 2 1) := by nlinarith
  have p2 : B 0 0 * (B 1 1 * B 2 2 + B 1 2 * B 2 1) ≤ 16 := by nlinarith
  have p3 : 1 / 1000000000000 ≤ B 0 1 * (B 1 0 * B 2 2 + B 1 2 * B 2 0) := by nlinarith
  have p4 : B 0 1 * (B 1 0 * B 2 2 + B 1 2 * B 2 0) ≤ 16 := by nlinarith
  have p5 : 1 / 1000000000000 ≤ B 0 2 * (B 1 0 * B 2 1 + B 1 1 * B 2 0) := by nlinarith
  have p6 : B 0 2 * (B 1 0 * B 2 1 + B 1 1 * B 2 0) ≤ 16 := by nlinarith
  have e1 := ((h00.1.one_mul (by linarith) (by norm_num; linarith) (by linarith)).mul d1 (by linarith) (by norm_num; linarith) (by norm_num; linarith) (by linarith)).zero_add
    (by norm_num; linarith) (by norm_num; linarith) (by linarith)
  have e2 := (h01.1.neg_mul (by linarith) (by norm_num; linarith) (by linarith)).mul d2 (by linarith) (by norm_num; linarith) (by norm_num; linarith) (by linarith)
  have e3 := (h02.1.one_mul (by linarith) (by norm_num; linarith) (by linarith)).mul d3 (by linarith) (by norm_num; linarith) (by norm_num; linarith) (by linarith)
  have e4 := e1.add e2 (k 0 + k 1 + k 2 + 7.4) (by norm_num; linarith) (by norm_num; linarith) (by norm_num; linarith) (by norm_num; linarith) (by linarith)
  have e5 := e4.add e3 (k 0 + k 1 + k 2 + 8.4) (by norm_num; linarith) (by norm_num; linarith) (by norm_num; linarith) (by norm_num; linarith) (by linarith)
  refine ⟨?_, by unfold perm3; norm_num; linarith⟩
  have e6 : Appr (Mat.d3 M) (A 0 0 * (A 1 1 * A 2 2 - A 1 2 * A 2 1) + -A 0 1 * (A 1 0 * A 2 2 - A 1 2 * A 2 0) + A 0 2 * (A 1 0 * A 2 1 - A 1 1 * A 2 0)) (perm3 B)
    (k 0 + k 1 + k 2 + 8.4 + 1) := e5
  convert e6 using 1
  · unfold rdet; ring
  · norm_num; ring

theorem appr_adj3 {M : Fin 3 → Fin 3 → Fl} {A B : Fin 3 → Fin 3 → ℝ} {k : Fin 3 → ℝ} (h : ApprMat M A B k) (hk : k 0 + k 1 + k 2 ≤ 400) (i j : Fin 3) :
    Appr (Mat.adj3 M i j) (radj A i j) (padj B i j) (k 0 + k 1 + k 2 + 5.2) ∧ 1e-8 ≤ padj B i j ∧ padj B i j ≤ 8 := by
  have k0 := (h 0 0).1.k0; have k1 := (h 1 0).1.k0; have k2 := (h 2 0).1.k0
  have pos : ∀ r s p q : Fin 3, k r + k s ≤ k 0 + k 1 + k 2 → Appr (1 * Mat.d2 (M r p) (M r q) (M s p) (M s q)) (A r p * A s q - A r q * A s p) (B r p * B s q + B r q * B s p) (k 0 + k 1 + k 2 + 5.2) ∧
      1e-8 ≤ B r p * B s q + B r q * B s p ∧ B r p * B s q + B r q * B s p ≤ 8 := by
    intro r s p q hrs
    obtain ⟨d, l, u⟩ := appr_d2 (h r p).1 (h r q).1 (h s p).1 (h s q).1 (h r p).2 (h r q).2 (h s p).2 (h s q).2 (by linarith)
    exact ⟨(d.one_mul (by norm_num; linarith) (by norm_num at *; linarith) (by linarith)).weaken le_rfl (by norm_num; linarith), l, u⟩
  have neg : ∀ r s p q : Fin 3, k r + k s ≤ k 0 + k 1 + k 2 → Appr (Elem.neg1 * Mat.d2 (M r p) (M r q) (M s p) (M s q)) (-(A r p * A s q - A r q * A s p)) (B r p * B s q + B r q * B s p) (k 0 + k 1 + k 2 + 5.2) ∧
      1e-8 ≤ B r p * B s q + B r q * B s p ∧ B r p * B s q + B r q * B s p ≤ 8 := by
    intro r s p q hrs
    obtain ⟨d, l, u⟩ := appr_d2 (h r p).1 (h r q).1 (h s p).1 (h s q).1 (h r p).2 (h r q).2 (h s p).2 (h s q).2 (by linarith)
    exact ⟨(d.neg_mul (by norm_num; linarith) (by norm_num at *; linarith) (by linarith)).weaken le_rfl (by norm_num; linarith), l, u⟩
  fin_cases i <;> fin_cases j
  · exact pos 1 2 1 2 (by linarith)
  · exact neg 0 2 1 2 (by linarith)
  · exact pos 0 1 1 2 (by linarith)
  · exact neg 1 2 0 2 (by linarith)
  · exact pos 0 2 0 2 (by linarith)
  · exact neg 0 1 0 2 (by linarith)
  · exact pos 1 2 0 1 (by linarith)
  · exact neg 0 2 0 1 (by linarith)
  · exact pos 0 1 0 1 (by linarith)

omit [FloatModel] [FineError] in
/-- How far the determinants of two close matrices are apart (the rounding analysis in exact arithmetic). -/
theorem det_close {m A B : Fin 3 → Fin 3 → ℝ} {k : Fin 3 → ℝ} (hk0 : ∀ i, 0 ≤ k i) (h : ∀ i j, |m i j - A i j| ≤ k i * B i j * 1.2e-7) (hA : ∀ i j, |A i j| ≤ B i j) (hB : ∀ i j, Mid (B i j))
    (hk : k 0 + k 1 + k 2 ≤ 400) : |rdet m - rdet A| ≤ (k 0 + k 1 + k 2 + 9.4) * perm3 B * 1.2e-7 := by
  letI := exactFloat
  haveI := exactFloat_exact
  have hm : ApprMat (fun i j => fin (m i j)) A B k := fun i j => ⟨⟨⟨_, rfl, h i j⟩, hA i j, hk0 i⟩, hB i j⟩
  obtain ⟨y, h1, h2⟩ := (appr_d3 hm hk).1.near
  have e : Mat.d3 (fun i j => fin (m i j)) = fin (rdet m) := by
    have n1 : (Elem.neg1 : Fl) = fin (-1) := rfl
    simp only [Mat.d3, Mat.d2, n1, one_def, zero_def, mul_exact, add_exact]
    unfold rdet
    congr 1; ring
  rw [e] at h1
  cases h1
  exact h2

/-- Inverting an approximately known matrix whose determinant is not too small. -/
theorem appr_invert {M : Fin 3 → Fin 3 → Fl} {A B : Fin 3 → Fin 3 → ℝ} {k : Fin 3 → ℝ} (h : ApprMat M A B k) (hk : k 0 + k 1 + k 2 ≤ 400) (β κ : ℝ) (hβ : 1e-3 ≤ β)
    (hd : β ≤ |rdet A|) (hκ : perm3 B ≤ κ * β) (hκ1 : κ ≤ 5) (hkκ : (k 0 + k 1 + k 2 + 5.2) + (k 0 + k 1 + k 2 + 9.4) * κ ≤ 1000) (hu : ∀ i j, padj B i j ≤ 1000 * β) :
    ∃ N, (Mat.mat3 M).invert = ok (Mat.mat3 N) ∧
      ∀ i j, Appr (N i j) (radj A i j / rdet A) (padj B i j / β) ((k 0 + k 1 + k 2 + 5.2) + (k 0 + k 1 + k 2 + 9.4) * κ + 1.2) := by
  have k0 := (h 0 0).1.k0; have k1 := (h 1 0).1.k0; have k2 := (h 2 0).1.k0
  have hβ0 : 0 < β := lt_of_lt_of_le (by norm_num) hβ
  choose m hm using fun i j => (h i j).1.near
  have hM : M = fun i j => fin (m i j) := by ext i j; rw [(hm i j).1]
  have hdm := det_close (m := m) (fun i => (h i 0).1.k0) (fun i j => (hm i j).2) (fun i j => (h i j).1.le) (fun i j => (h i j).2) hk
  obtain ⟨hd3, hp⟩ := appr_d3 h hk
  have hsmall : (k 0 + k 1 + k 2 + 9.4) * perm3 B * 1.2e-7 < β := by
    have e1 : (k 0 + k 1 + k 2 + 9.4) * perm3 B ≤ (k 0 + k 1 + k 2 + 9.4) * (κ * β) := by gcongr
    have e2 : (k 0 + k 1 + k 2 + 9.4) * κ * β ≤ 1000 * β := by
      apply mul_le_mul_of_nonneg_right _ hβ0.le
      norm_num at hkκ ⊢; linarith
    norm_num at *; nlinarith
  have hne : rdet m ≠ 0 := by
    intro h0
    rw [h0, zero_sub, abs_neg] at hdm
    linarith
  have hne2 : ¬ Elem.same (Mat.d3 M) 0 := by
    obtain ⟨y, h1, h2⟩ := hd3.near
    rw [h1]
    intro hs
    have : y = 0 := feq_fin.mp (by rw [← zero_def]; exact hs)
    rw [this, zero_sub, abs_neg] at h2
    linarith
  refine ⟨_, Mat.invert_mat3 M (hM ▸ good_of_det m hne) hne2, fun i j => ?_⟩
  obtain ⟨ha, l, u⟩ := appr_adj3 h hk i j
  refine ha.div hd3 β κ hβ0 hd hκ hkκ ?_ ?_
  · rw [le_div_iff₀ hβ0]
    have hb : β ≤ 1000 := by
      have := hd.trans hd3.le
      have : κ * β ≤ 5 * β := by gcongr
      have : |rdet A| ≤ perm3 B := hd3.le
      have : perm3 B ≤ 1000 := by
        have c : ∀ i j, 0 ≤ B i j ∧ B i j ≤ 2 := fun i j => ⟨(h i j).1.B0, (h i j).2.2⟩
        have c3 : ∀ x y z : ℝ, 0 ≤ x ∧ x ≤ 2 → 0 ≤ y ∧ y ≤ 2 → 0 ≤ z ∧ z ≤ 2 → x * (y * z) ≤ 2 * (2 * 2) := by
          rintro x y z ⟨x0, x1⟩ ⟨y0, y1⟩ ⟨z0, z1⟩
          gcongr
        unfold perm3
        have := c3 _ _ _ (c 0 0) (c 1 1) (c 2 2)
        have := c3 _ _ _ (c 0 0) (c 1 2) (c 2 1)
        have := c3 _ _ _ (c 0 1) (c 1 0) (c 2 2)
        have := c3 _ _ _ (c 0 1) (c 1 2) (c 2 0)
        have := c3 _ _ _ (c 0 2) (c 1 0) (c 2 1)
        have := c3 _ _ _ (c 0 2) (c 1 1) (c 2 0)
        linarith
      linarith
    norm_num at *; linarith
  · rw [div_le_iff₀ hβ0]; exact hu i j

/-- A row times a vector. -/
theorem appr_row {a b c x y z : Fl} {ra rb rc rx ry rz A B C X Y Z k l : ℝ} (ha : Appr a ra A k) (hb : Appr b rb B k) (hc : Appr c rc C k) (hx : Appr x rx X l) (hy : Appr y ry Y l)
    (hz : Appr z rz Z l) (hk : k ≤ 1000) (hl : l ≤ 1000) (lo : 1e-20 ≤ A * X ∧ 1e-20 ≤ B * Y ∧ 1e-20 ≤ C * Z) (hi : A * X + B * Y + C * Z ≤ 1000) (hkl : k + l ≤ 900) :
    Appr (0 + a * x + b * y + c * z) (ra * rx + rb * ry + rc * rz) (A * X + B * Y + C * Z) (k + l + 4.2) := by
  obtain ⟨l1, l2, l3⟩ := lo
  norm_num at l1 l2 l3
  have e1 := (ha.mul hx hk hl (by norm_num; linarith) (by linarith)).zero_add (by norm_num; linarith) (by norm_num; linarith) (by linarith)
  have e2 := hb.mul hy hk hl (by norm_num; linarith) (by linarith)
  have e3 := hc.mul hz hk hl (by norm_num; linarith) (by linarith)
  have e4 := e1.add e2 (k + l + 2.2) (by linarith) (by linarith) (by linarith) (by norm_num; linarith) (by linarith)
  have e5 := e4.add e3 (k + l + 3.2) (by linarith) (by linarith) (by linarith) (by norm_num; linarith) (by linarith)
  convert e5 using 1
  norm_num; ring

end Fl

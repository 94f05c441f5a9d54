import Verif.AdaptLemmas

/-! Helper lemmas: the computations of the adaptation methods. -/

open Outcome Fl Prog ObjectSpec ConvSpec Combine Matrix

namespace Adapt
variable [FloatModel]

/-! ### Every arithmetic -/

theorem mat_three (m : AdaptMatrix) : ∃ a b c d e f g i j, m.mat = ok ⟨3, 3, [[a, b, c], [d, e, f], [g, i, j]]⟩ := by
  cases m <;> exact ⟨_, _, _, _, _, _, _, _, _, rfl⟩
theorem inv_three (m : AdaptMatrix) : ∃ a b c d e f g i j, m.inv = ok ⟨3, 3, [[a, b, c], [d, e, f], [g, i, j]]⟩ := by
  cases m <;> exact ⟨_, _, _, _, _, _, _, _, _, rfl⟩

theorem simplified_total (m : AdaptMatrix) (x y z : Fl) (own : List Fl) (s d : V3) : ∃ v0 v1 v2, simplified m [x, y, z] own s d = ok [v0, v1, v2] := by
  obtain ⟨a, b, c, d', e, f, g, i, j, h1⟩ := mat_three m
  obtain ⟨a', b', c', d'', e', f', g', i', j', h2⟩ := inv_three m
  unfold simplified
  rw [h1, h2]
  simp only [ok_bind, Mat.mulVec_shape3, three, Mat.vget, List.getElem?_cons_zero, List.getElem?_cons_succ, Mat.ofList_three, Mat.mul_three]
  exact ⟨_, _, _, rfl⟩

theorem bradfordCore_total (x y z o0 o1 : Fl) (own : List Fl) (s d : V3) : ∃ v0 v1 v2, bradfordCore [x, y, z] (o0 :: o1 :: own) s d = ok [v0, v1, v2] := ⟨_, _, _, rfl⟩

theorem cmccat97Core_total (f la x y z o0 o1 : Fl) (own : List Fl) (s d : V3) : ∃ v0 v1 v2, cmccat97Core f la [x, y, z] (o0 :: o1 :: own) s d = ok [v0, v1, v2] := ⟨_, _, _, rfl⟩

theorem cmccat2000Core_total (f la lr x y z : Fl) (own : List Fl) (s d : V3) : ∃ v0 v1 v2, cmccat2000Core f la lr [x, y, z] own s d = ok [v0, v1, v2] := ⟨_, _, _, rfl⟩

theorem cat02Core_total (f la x y z : Fl) (own : List Fl) (s d : V3) : ∃ v0 v1 v2, cat02Core f la [x, y, z] own s d = ok [v0, v1, v2] := ⟨_, _, _, rfl⟩

theorem bradfordCore_grey (x y z o : Fl) (s d : V3) : bradfordCore [x, y, z] [o] s d = .ub := rfl
theorem cmccat97Core_grey (f la x y z o : Fl) (s d : V3) : cmccat97Core f la [x, y, z] [o] s d = .ub := rfl

/-! ### Exact arithmetic -/

/-- A 3×3 matrix from its entries row by row. -/
noncomputable def square (l : List ℝ) : Matrix (Fin 3) (Fin 3) ℝ :=
  !![l.getD 0 0, l.getD 1 0, l.getD 2 0; l.getD 3 0, l.getD 4 0, l.getD 5 0; l.getD 6 0, l.getD 7 0, l.getD 8 0]

variable [ExactModel]

theorem mat_exact (m : AdaptMatrix) : m.mat = ok (Mat.ofMatrix fin (square m.values)) := by
  cases m <;> simp only [AdaptMatrix.mat, AdaptMatrix.values, List.map, lit_exact] <;> rfl

theorem inv_exact (m : AdaptMatrix) : m.inv = ok (Mat.ofMatrix fin (square m.inverseValues)) := by
  cases m <;> simp only [AdaptMatrix.inv, AdaptMatrix.inverseValues, List.map, lit_exact] <;> rfl

theorem three_cons (a b c : Fl) : three [a, b, c] = ok (a, b, c) := rfl

/-- The matrix of a simplified method. -/
noncomputable def ideal (m : AdaptMatrix) (s d : Fin 3 → ℝ) : Matrix (Fin 3) (Fin 3) ℝ :=
  square m.inverseValues * diagonal (fun i => (square m.values).mulVec d i / (square m.values).mulVec s i) * square m.values

theorem simplified_exact (m : AdaptMatrix) (x s d : Fin 3 → ℝ) (own : List Fl) (hs : ∀ i, (square m.values).mulVec s i ≠ 0) :
    simplified m [fin (x 0), fin (x 1), fin (x 2)] own ⟨fin (s 0), fin (s 1), fin (s 2)⟩ ⟨fin (d 0), fin (d 1), fin (d 2)⟩ =
      ok [fin ((ideal m s d).mulVec x 0), fin ((ideal m s d).mulVec x 1), fin ((ideal m s d).mulVec x 2)] := by
  unfold simplified
  rw [mat_exact, inv_exact]
  simp only [ok_bind, Mat.mulVec_three Mat.emb_fin, three_cons, div_exact _ _ (hs 0), div_exact _ _ (hs 1), div_exact _ _ (hs 2)]
  have z : (0 : Fl) = fin 0 := zero_def
  rw [z]
  have e : ∀ a b c : ℝ, Mat.ofList 3 3 [fin a, fin 0, fin 0, fin 0, fin b, fin 0, fin 0, fin 0, fin c] = ok (Mat.ofMatrix fin (diagonal ![a, b, c])) := by
    intro a b c
    have : (diagonal ![a, b, c] : Matrix (Fin 3) (Fin 3) ℝ) = !![a, 0, 0; 0, b, 0; 0, 0, c] := by
      ext i j; fin_cases i <;> fin_cases j <;> rfl
    rw [this]; rfl
  rw [e, ok_bind, Mat.mul_square Mat.emb_fin, ok_bind, Mat.mul_square Mat.emb_fin, ok_bind, Mat.mulVec_three Mat.emb_fin]
  have hd : (diagonal ![(square m.values).mulVec d 0 / (square m.values).mulVec s 0, (square m.values).mulVec d 1 / (square m.values).mulVec s 1,
      (square m.values).mulVec d 2 / (square m.values).mulVec s 2] : Matrix (Fin 3) (Fin 3) ℝ) = diagonal (fun i => (square m.values).mulVec d i / (square m.values).mulVec s i) := by
    congr 1
    funext i; fin_cases i <;> rfl
  rw [hd]
  rfl

/-- How far the product of the two matrices of a method is from the identity. -/
noncomputable def slack : AdaptMatrix → ℝ
  | .von_kries => 4e-8
  | .bradford => 8e-8
  | .xyz_scale => 0
  | .sharp => 1e-5
  | .cmccat97 => 1e-5
  | .cmccat2000 => 1e-5
  | .cat02 => 1e-5

omit [FloatModel] [ExactModel] in
theorem product_close (m : AdaptMatrix) (i j : Fin 3) : |(square m.inverseValues * square m.values) i j - (1 : Matrix (Fin 3) (Fin 3) ℝ) i j| ≤ slack m := by
  cases m <;> fin_cases i <;> fin_cases j <;>
    simp [square, AdaptMatrix.values, AdaptMatrix.inverseValues, Matrix.mul_apply, Fin.sum_univ_three, slack, Matrix.one_apply] <;>
    norm_num [abs_le]

omit [FloatModel] [ExactModel] in
theorem product_mulVec (m : AdaptMatrix) (v : Fin 3 → ℝ) (i : Fin 3) :
    |(square m.inverseValues).mulVec ((square m.values).mulVec v) i - v i| ≤ slack m * (|v 0| + |v 1| + |v 2|) := by
  rw [Matrix.mulVec_mulVec]
  set P := square m.inverseValues * square m.values with hP
  have e : P.mulVec v i - v i = ∑ j, (P i j - (1 : Matrix (Fin 3) (Fin 3) ℝ) i j) * v j := by
    simp only [sub_mul, Finset.sum_sub_distrib]
    congr 1
    have := congrFun (Matrix.one_mulVec v) i
    rw [← this]; rfl
  rw [e, Fin.sum_univ_three]
  have h0 := product_close m i 0
  have h1 := product_close m i 1
  have h2 := product_close m i 2
  rw [← hP] at h0 h1 h2
  calc _ ≤ |(P i 0 - (1 : Matrix (Fin 3) (Fin 3) ℝ) i 0) * v 0| + |(P i 1 - (1 : Matrix (Fin 3) (Fin 3) ℝ) i 1) * v 1| + |(P i 2 - (1 : Matrix (Fin 3) (Fin 3) ℝ) i 2) * v 2| := abs_add_three _ _ _
    _ ≤ slack m * |v 0| + slack m * |v 1| + slack m * |v 2| := by
      simp only [abs_mul]
      gcongr
    _ = _ := by ring

omit [FloatModel] [ExactModel] in
theorem ideal_white (m : AdaptMatrix) (s d : Fin 3 → ℝ) (hs : ∀ i, (square m.values).mulVec s i ≠ 0) :
    (ideal m s d).mulVec s = (square m.inverseValues).mulVec ((square m.values).mulVec d) := by
  unfold ideal
  rw [← Matrix.mulVec_mulVec, ← Matrix.mulVec_mulVec]
  congr 1
  funext i
  rw [Matrix.mulVec_diagonal, div_mul_cancel₀ _ (hs i)]

omit [FloatModel] [ExactModel] in
theorem ideal_same (m : AdaptMatrix) (s x : Fin 3 → ℝ) (hs : ∀ i, (square m.values).mulVec s i ≠ 0) :
    (ideal m s s).mulVec x = (square m.inverseValues).mulVec ((square m.values).mulVec x) := by
  unfold ideal
  rw [← Matrix.mulVec_mulVec, ← Matrix.mulVec_mulVec]
  congr 1
  funext i
  rw [Matrix.mulVec_diagonal, div_self (hs i), one_mul]

/-! ### The degree of adaptation -/

theorem limitDegree_fin (d : ℝ) : limitDegree (fin d) = fin (max 0 (min 1 d)) := by
  unfold limitDegree
  simp only [zero_def, one_def, gt_iff_lt, fin_lt]
  by_cases h0 : d < 0
  · rw [if_pos h0, if_neg (by simp), min_eq_right (by linarith), max_eq_left h0.le]
  · rw [if_neg h0]
    by_cases h1 : 1 < d
    · rw [if_pos (by simpa using h1), min_eq_left h1.le, max_eq_right (by norm_num)]
    · rw [if_neg (by simpa using h1), min_eq_right (not_lt.mp h1), max_eq_right (not_lt.mp h0)]

theorem degree02_fin (f la : ℝ) : degree02 (fin f) (fin la) = fin (max 0 (min 1 (f * (1 - 1 / 3.6 * Real.exp ((-la - 42) / 92))))) := by
  rw [← limitDegree_fin]
  unfold degree02
  simp only [lit_def, one_def, lit_exact, neg_fin, sub_exact]
  rw [div_exact _ _ (by norm_num), div_exact _ _ (by norm_num), ExactModel.expf_eq]
  simp only [mul_exact, sub_exact]

theorem degree2000_fin (f la lr : ℝ) (h : 0 < la + lr) :
    degree2000 (fin f) (fin la) (fin lr) = fin (max 0 (min 1 (f * (0.08 * Real.logb 10 (0.5 * (la + lr)) + 0.76 - 0.45 * ((la - lr) / (la + lr)))))) := by
  rw [← limitDegree_fin]
  unfold degree2000
  simp only [lit_exact, add_exact, sub_exact, mul_exact]
  rw [ExactModel.log10f_eq _ (by positivity), div_exact _ _ h.ne']
  simp only [mul_exact, add_exact, sub_exact]

theorem degree97_fin (f la : ℝ) (h : 0 ≤ la) :
    degree97 (fin f) (fin la) = fin (max 0 (min 1 (f - f / (1 + 2 * la ^ (0.25 : ℝ) + la ^ (2 : ℝ) / 300)))) := by
  rw [← limitDegree_fin]
  unfold degree97
  have h1 : powf (fin la) (fin 0.25) = fin (la ^ (0.25 : ℝ)) := ExactModel.powf_eq _ _ (by
    rcases h.lt_or_eq with h | h
    · exact Or.inl h
    · exact Or.inr (Or.inl ⟨h.symm, by norm_num⟩))
  have h2 : powf (fin la) (fin 2) = fin (la ^ (2 : ℝ)) := ExactModel.powf_eq _ _ (Or.inr (Or.inr ⟨2, by norm_num⟩))
  have hp : 0 < 1 + 2 * la ^ (0.25 : ℝ) + la ^ (2 : ℝ) / 300 := by positivity
  simp only [lit_def, one_def, lit_exact, h1, h2, mul_exact, add_exact]
  rw [div_exact _ _ (by norm_num : (300 : ℝ) ≠ 0), add_exact, div_exact _ _ hp.ne', sub_exact]

/-! ### The remaining computations -/

omit [FloatModel] [ExactModel] in
/-- Partial adaptation is a mixture of no adaptation and the full one. -/
theorem mixture (m : AdaptMatrix) (s d x : Fin 3 → ℝ) (k e : ℝ) (i : Fin 3) :
    (square m.inverseValues).mulVec (fun i => (k * ((square m.values).mulVec d i / (square m.values).mulVec s i) + 1 - e) * (square m.values).mulVec x i) i =
      k * (ideal m s d).mulVec x i + (1 - e) * (square m.inverseValues).mulVec ((square m.values).mulVec x) i := by
  have h1 : (ideal m s d).mulVec x = (square m.inverseValues).mulVec (fun i => (square m.values).mulVec d i / (square m.values).mulVec s i * (square m.values).mulVec x i) := by
    unfold ideal
    rw [← Matrix.mulVec_mulVec, ← Matrix.mulVec_mulVec]
    congr 1
    funext i
    rw [Matrix.mulVec_diagonal]
  rw [h1]
  have h2 : (fun i => (k * ((square m.values).mulVec d i / (square m.values).mulVec s i) + 1 - e) * (square m.values).mulVec x i) =
      k • (fun i => (square m.values).mulVec d i / (square m.values).mulVec s i * (square m.values).mulVec x i) + (1 - e) • (square m.values).mulVec x := by
    funext i
    simp only [Pi.add_apply, Pi.smul_apply, smul_eq_mul]
    ring
  rw [h2, Matrix.mulVec_add, Matrix.mulVec_smul, Matrix.mulVec_smul]
  rfl

theorem mulVec_list (m : Matrix (Fin 3) (Fin 3) ℝ) (a b c : ℝ) :
    (Mat.ofMatrix fin m).mulVec [fin a, fin b, fin c] = ok [fin (m.mulVec ![a, b, c] 0), fin (m.mulVec ![a, b, c] 1), fin (m.mulVec ![a, b, c] 2)] :=
  Mat.mulVec_three Mat.emb_fin m ![a, b, c]

omit [FloatModel] [ExactModel] in
theorem vec3 (g : Fin 3 → ℝ) : ![g 0, g 1, g 2] = g := by funext i; fin_cases i <;> rfl

theorem cat02Core_exact (f la e : ℝ) (he : degree02 (fin f) (fin la) = fin e) (x s d : Fin 3 → ℝ) (own : List Fl) (hs : ∀ i, (square AdaptMatrix.cat02.values).mulVec s i ≠ 0) :
    cat02Core (fin f) (fin la) [fin (x 0), fin (x 1), fin (x 2)] own ⟨fin (s 0), fin (s 1), fin (s 2)⟩ ⟨fin (d 0), fin (d 1), fin (d 2)⟩ =
      ok ((List.ofFn fun i => fin (e * (ideal .cat02 s d).mulVec x i + (1 - e) * (square AdaptMatrix.cat02.inverseValues).mulVec ((square AdaptMatrix.cat02.values).mulVec x) i))) := by
  unfold cat02Core
  rw [mat_exact, inv_exact]
  simp only [ok_bind, Mat.mulVec_three Mat.emb_fin, three_cons, div_exact _ _ (hs 0), div_exact _ _ (hs 1), div_exact _ _ (hs 2), he, one_def, mul_exact, add_exact, sub_exact, mulVec_list]
  simp only [← mixture]
  have : ∀ i : Fin 3, (fun i => (e * ((square AdaptMatrix.cat02.values).mulVec d i / (square AdaptMatrix.cat02.values).mulVec s i) + 1 - e) * (square AdaptMatrix.cat02.values).mulVec x i) i =
      (square AdaptMatrix.cat02.values).mulVec x i * (e * ((square AdaptMatrix.cat02.values).mulVec d i / (square AdaptMatrix.cat02.values).mulVec s i) + 1 - e) := fun i => mul_comm _ _
  rw [← vec3 (fun i => (e * ((square AdaptMatrix.cat02.values).mulVec d i / (square AdaptMatrix.cat02.values).mulVec s i) + 1 - e) * (square AdaptMatrix.cat02.values).mulVec x i)]
  simp only [this, List.ofFn_succ, List.ofFn_zero]
  rfl

theorem cmccat2000Core_exact (f la lr e : ℝ) (he : degree2000 (fin f) (fin la) (fin lr) = fin e) (x s d : Fin 3 → ℝ) (own : List Fl)
    (hs : ∀ i, (square AdaptMatrix.cmccat2000.values).mulVec s i ≠ 0) (hd : d 1 ≠ 0) :
    cmccat2000Core (fin f) (fin la) (fin lr) [fin (x 0), fin (x 1), fin (x 2)] own ⟨fin (s 0), fin (s 1), fin (s 2)⟩ ⟨fin (d 0), fin (d 1), fin (d 2)⟩ =
      ok ((List.ofFn fun i => fin (e * (s 1 / d 1) * (ideal .cmccat2000 s d).mulVec x i +
        (1 - e) * (square AdaptMatrix.cmccat2000.inverseValues).mulVec ((square AdaptMatrix.cmccat2000.values).mulVec x) i))) := by
  unfold cmccat2000Core
  rw [mat_exact, inv_exact]
  simp only [ok_bind, Mat.mulVec_three Mat.emb_fin, three_cons, div_exact _ _ (hs 0), div_exact _ _ (hs 1), div_exact _ _ (hs 2), div_exact _ _ hd, he, one_def, mul_exact, add_exact, sub_exact, mulVec_list]
  simp only [← mixture]
  rw [← vec3 (fun i => (e * (s 1 / d 1) * ((square AdaptMatrix.cmccat2000.values).mulVec d i / (square AdaptMatrix.cmccat2000.values).mulVec s i) + 1 - e) * (square AdaptMatrix.cmccat2000.values).mulVec x i)]
  simp only [List.ofFn_succ, List.ofFn_zero]
  rfl

/-- `sign(x) |x|^p` -/
noncomputable def signedPow (x p : ℝ) : ℝ := if x < 0 then -(|x| ^ p) else |x| ^ p

theorem powf_abs (x p : ℝ) (hp : 0 < p) : powf (abs (fin x)) (fin p) = fin (|x| ^ p) := by
  rw [abs_fin]
  refine ExactModel.powf_eq _ _ ?_
  rcases (abs_nonneg x).lt_or_eq with h | h
  · exact Or.inl h
  · exact Or.inr (Or.inl ⟨h.symm, hp⟩)

omit [FloatModel] [ExactModel] in
theorem mulVec_div (M : Matrix (Fin 3) (Fin 3) ℝ) (v : Fin 3 → ℝ) (k : ℝ) (i : Fin 3) : M.mulVec ![v 0 / k, v 1 / k, v 2 / k] i = M.mulVec v i / k := by
  have : ![v 0 / k, v 1 / k, v 2 / k] = (1 / k) • v := by funext i; fin_cases i <;> simp <;> ring
  rw [this, Matrix.mulVec_smul, Pi.smul_apply, smul_eq_mul]
  ring

/-- The vector to which `bradford_adaptation` applies the inverse matrix. -/
noncomputable def bradfordVec (M : Matrix (Fin 3) (Fin 3) ℝ) (x s d : Fin 3 → ℝ) (y : ℝ) : Fin 3 → ℝ :=
  let r := fun i => M.mulVec x i / y
  let s' := fun i => M.mulVec s i / s 1
  let d' := fun i => M.mulVec d i / d 1
  ![d' 0 * (r 0 / s' 0) * y, d' 1 * (r 1 / s' 1) * y, d' 2 * signedPow (r 2 / s' 2) ((s' 2 / d' 2) ^ (0.0834 : ℝ)) * y]

theorem bradfordCore_exact (x s d : Fin 3 → ℝ) (o : Fl) (y : ℝ) (own : List Fl) (hy : y ≠ 0) (hs1 : s 1 ≠ 0) (hd1 : d 1 ≠ 0) (hs : ∀ i, (square AdaptMatrix.bradford.values).mulVec s i ≠ 0)
    (hp : 0 < ((square AdaptMatrix.bradford.values).mulVec s 2 / s 1) / ((square AdaptMatrix.bradford.values).mulVec d 2 / d 1)) :
    bradfordCore [fin (x 0), fin (x 1), fin (x 2)] (o :: fin y :: own) ⟨fin (s 0), fin (s 1), fin (s 2)⟩ ⟨fin (d 0), fin (d 1), fin (d 2)⟩ =
      ok (List.ofFn fun i => fin ((square AdaptMatrix.bradford.inverseValues).mulVec (bradfordVec (square AdaptMatrix.bradford.values) x s d y) i)) := by
  unfold bradfordCore
  rw [mat_exact, inv_exact]
  have hs' : ∀ i, (square AdaptMatrix.bradford.values).mulVec s i / s 1 ≠ 0 := fun i => div_ne_zero (hs i) hs1
  have hd2 : (square AdaptMatrix.bradford.values).mulVec d 2 / d 1 ≠ 0 := by
    intro h; rw [h, div_zero] at hp; exact lt_irrefl _ hp
  have hpow : powf (fin ((square AdaptMatrix.bradford.values).mulVec s 2 / s 1 / ((square AdaptMatrix.bradford.values).mulVec d 2 / d 1))) (fin 0.0834) = fin (((square AdaptMatrix.bradford.values).mulVec s 2 / s 1 / ((square AdaptMatrix.bradford.values).mulVec d 2 / d 1)) ^ (0.0834 : ℝ)) :=
    ExactModel.powf_eq _ _ (Or.inl hp)
  have hv : Mat.vget (o :: fin y :: own) 1 = ok (fin y) := rfl
  simp only [ok_bind, Mat.mulVec_three Mat.emb_fin, three_cons, hv, div_exact _ _ hs1, div_exact _ _ hd1, div_exact _ _ hy, mulVec_list, mulVec_div,
    div_exact _ _ (hs' 0), div_exact _ _ (hs' 1), div_exact _ _ (hs' 2), div_exact _ _ hd2, lit_exact, hpow, powf_abs _ _ (Real.rpow_pos_of_pos hp _), mul_exact, zero_def, one_def, neg_fin, fin_lt]
  have hif : ∀ (q : Prop) [Decidable q] (u v : ℝ), (if q then fin u else fin v) = fin (if q then u else v) := by intro q _ u v; split <;> rfl
  rw [hif, mulVec_list]
  simp only [List.ofFn_succ, List.ofFn_zero]
  have e : ![(square AdaptMatrix.bradford.values).mulVec d 0 / d 1 * ((square AdaptMatrix.bradford.values).mulVec x 0 / y / ((square AdaptMatrix.bradford.values).mulVec s 0 / s 1)) * y,
      (square AdaptMatrix.bradford.values).mulVec d 1 / d 1 * ((square AdaptMatrix.bradford.values).mulVec x 1 / y / ((square AdaptMatrix.bradford.values).mulVec s 1 / s 1)) * y,
      if (square AdaptMatrix.bradford.values).mulVec x 2 / y / ((square AdaptMatrix.bradford.values).mulVec s 2 / s 1) < 0 then
        (square AdaptMatrix.bradford.values).mulVec d 2 / d 1 * |(square AdaptMatrix.bradford.values).mulVec x 2 / y / ((square AdaptMatrix.bradford.values).mulVec s 2 / s 1)| ^
          ((square AdaptMatrix.bradford.values).mulVec s 2 / s 1 / ((square AdaptMatrix.bradford.values).mulVec d 2 / d 1)) ^ (0.0834 : ℝ) * y * -1
      else (square AdaptMatrix.bradford.values).mulVec d 2 / d 1 * |(square AdaptMatrix.bradford.values).mulVec x 2 / y / ((square AdaptMatrix.bradford.values).mulVec s 2 / s 1)| ^
          ((square AdaptMatrix.bradford.values).mulVec s 2 / s 1 / ((square AdaptMatrix.bradford.values).mulVec d 2 / d 1)) ^ (0.0834 : ℝ) * y] =
      bradfordVec (square AdaptMatrix.bradford.values) x s d y := by
    simp only [bradfordVec, signedPow]
    congr 3
    split
    · ring_nf
    · rfl
  rw [e]
  rfl

/-- The vector to which `cmccat97_adaptation` applies the inverse matrix. -/
noncomputable def cmccat97Vec (M : Matrix (Fin 3) (Fin 3) ℝ) (x s d : Fin 3 → ℝ) (y e : ℝ) : Fin 3 → ℝ :=
  let r := fun i => M.mulVec x i / y
  let s' := fun i => M.mulVec s i / s 1
  let d' := fun i => M.mulVec d i / d 1
  let p := (s' 2 / d' 2) ^ (0.0834 : ℝ)
  ![y * (r 0 * (e * (d' 0 / s' 0) + 1 - e)), y * (r 1 * (e * (d' 1 / s' 1) + 1 - e)), y * (signedPow (r 2) p * (e * (d' 2 / s' 2 ^ p) + 1 - e))]

theorem cmccat97Core_exact (f la e : ℝ) (he : degree97 (fin f) (fin la) = fin e) (x s d : Fin 3 → ℝ) (o : Fl) (y : ℝ) (own : List Fl) (hy : y ≠ 0) (hs1 : s 1 ≠ 0) (hd1 : d 1 ≠ 0)
    (hs : ∀ i, (square AdaptMatrix.cmccat97.values).mulVec s i ≠ 0) (hs2 : 0 < (square AdaptMatrix.cmccat97.values).mulVec s 2 / s 1) (hd2 : 0 < (square AdaptMatrix.cmccat97.values).mulVec d 2 / d 1) :
    cmccat97Core (fin f) (fin la) [fin (x 0), fin (x 1), fin (x 2)] (o :: fin y :: own) ⟨fin (s 0), fin (s 1), fin (s 2)⟩ ⟨fin (d 0), fin (d 1), fin (d 2)⟩ =
      ok (List.ofFn fun i => fin ((square AdaptMatrix.cmccat97.inverseValues).mulVec (cmccat97Vec (square AdaptMatrix.cmccat97.values) x s d y e) i)) := by
  unfold cmccat97Core
  rw [mat_exact, inv_exact]
  have hs' : ∀ i, (square AdaptMatrix.cmccat97.values).mulVec s i / s 1 ≠ 0 := fun i => div_ne_zero (hs i) hs1
  set S := fun i => (square AdaptMatrix.cmccat97.values).mulVec s i / s 1 with hS
  set D := fun i => (square AdaptMatrix.cmccat97.values).mulVec d i / d 1 with hD
  have hp : 0 < S 2 / D 2 := div_pos hs2 hd2
  have hpow : powf (fin (S 2 / D 2)) (fin 0.0834) = fin ((S 2 / D 2) ^ (0.0834 : ℝ)) := ExactModel.powf_eq _ _ (Or.inl hp)
  have hpp := Real.rpow_pos_of_pos hp (0.0834 : ℝ)
  have hpow2 : powf (fin (S 2)) (fin ((S 2 / D 2) ^ (0.0834 : ℝ))) = fin (S 2 ^ ((S 2 / D 2) ^ (0.0834 : ℝ))) := ExactModel.powf_eq _ _ (Or.inl hs2)
  have hne : S 2 ^ ((S 2 / D 2) ^ (0.0834 : ℝ)) ≠ 0 := (Real.rpow_pos_of_pos hs2 _).ne'
  have hv : Mat.vget (o :: fin y :: own) 1 = ok (fin y) := rfl
  simp only [hS, hD] at hpow hpow2 hpp hne
  simp only [ok_bind, Mat.mulVec_three Mat.emb_fin, three_cons, hv, div_exact _ _ hs1, div_exact _ _ hd1, div_exact _ _ hy, mulVec_list, mulVec_div,
    div_exact _ _ (hs' 0), div_exact _ _ (hs' 1), div_exact _ _ hd2.ne', lit_exact, hpow, hpow2, powf_abs _ _ hpp, div_exact _ _ hne, he, mul_exact, add_exact, sub_exact, zero_def, one_def, neg_fin, fin_lt]
  have hif : ∀ (q : Prop) [Decidable q] (u v : ℝ), (if q then fin u else fin v) = fin (if q then u else v) := by intro q _ u v; split <;> rfl
  rw [hif, mulVec_list]
  simp only [List.ofFn_succ, List.ofFn_zero]
  have e3 : ∀ a b c a' b' c' : ℝ, a = a' → b = b' → c = c' → ![a, b, c] = ![a', b', c'] := by rintro a b c _ _ _ rfl rfl rfl; rfl
  have key : ![y * ((square AdaptMatrix.cmccat97.values).mulVec x 0 / y * (e * ((square AdaptMatrix.cmccat97.values).mulVec d 0 / d 1 / ((square AdaptMatrix.cmccat97.values).mulVec s 0 / s 1)) + 1 - e)),
      y * ((square AdaptMatrix.cmccat97.values).mulVec x 1 / y * (e * ((square AdaptMatrix.cmccat97.values).mulVec d 1 / d 1 / ((square AdaptMatrix.cmccat97.values).mulVec s 1 / s 1)) + 1 - e)),
      if (square AdaptMatrix.cmccat97.values).mulVec x 2 / y < 0 then
        y * (|(square AdaptMatrix.cmccat97.values).mulVec x 2 / y| ^ ((square AdaptMatrix.cmccat97.values).mulVec s 2 / s 1 / ((square AdaptMatrix.cmccat97.values).mulVec d 2 / d 1)) ^ (0.0834 : ℝ) *
          (e * ((square AdaptMatrix.cmccat97.values).mulVec d 2 / d 1 / ((square AdaptMatrix.cmccat97.values).mulVec s 2 / s 1) ^ ((square AdaptMatrix.cmccat97.values).mulVec s 2 / s 1 / ((square AdaptMatrix.cmccat97.values).mulVec d 2 / d 1)) ^ (0.0834 : ℝ)) + 1 - e)) * -1
      else y * (|(square AdaptMatrix.cmccat97.values).mulVec x 2 / y| ^ ((square AdaptMatrix.cmccat97.values).mulVec s 2 / s 1 / ((square AdaptMatrix.cmccat97.values).mulVec d 2 / d 1)) ^ (0.0834 : ℝ) *
          (e * ((square AdaptMatrix.cmccat97.values).mulVec d 2 / d 1 / ((square AdaptMatrix.cmccat97.values).mulVec s 2 / s 1) ^ ((square AdaptMatrix.cmccat97.values).mulVec s 2 / s 1 / ((square AdaptMatrix.cmccat97.values).mulVec d 2 / d 1)) ^ (0.0834 : ℝ)) + 1 - e))] =
      cmccat97Vec (square AdaptMatrix.cmccat97.values) x s d y e := by
    simp only [cmccat97Vec, signedPow]
    refine e3 _ _ _ _ _ _ rfl rfl ?_
    split
    · ring
    · rfl
  rw [key]
  rfl

omit [FloatModel] [ExactModel] in
theorem square_det (m : AdaptMatrix) : (square m.values).det ≠ 0 := by
  cases m <;> simp [square, AdaptMatrix.values, Matrix.det_fin_three] <;> norm_num

omit [FloatModel] [ExactModel] in
/-- The stored inverse applied to any vector is close to the true inverse applied to it. -/
theorem inverse_close (m : AdaptMatrix) (v : Fin 3 → ℝ) (i : Fin 3) :
    |(square m.inverseValues).mulVec v i - ((square m.values)⁻¹).mulVec v i| ≤
      slack m * (|((square m.values)⁻¹).mulVec v 0| + |((square m.values)⁻¹).mulVec v 1| + |((square m.values)⁻¹).mulVec v 2|) := by
  have h := product_mulVec m (((square m.values)⁻¹).mulVec v) i
  rwa [Matrix.mulVec_mulVec v (square m.values) (square m.values)⁻¹, Matrix.mul_nonsing_inv _ (isUnit_iff_ne_zero.mpr (square_det m)), Matrix.one_mulVec] at h

end Adapt

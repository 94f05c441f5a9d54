import Verif.FineNumbers

/-!
# The matrices of the preset colour spaces in single precision
-/

open Outcome Fl

namespace Fine

theorem triple {x y z x' y' z' X Y Z e : ℝ} (hx : |x - x'| ≤ e) (hy : |y - y'| ≤ e) (hz : |z - z'| ≤ e) (bx : |x'| ≤ X) (yb : |y| ≤ Y) (yb' : |y'| ≤ Y) (zb : |z| ≤ Z) :
    |x * (y * z) - x' * (y' * z')| ≤ e * (Y * Z + X * Z + X * Y) := by
  have e0 := (abs_nonneg _).trans hx
  have X0 := (abs_nonneg _).trans bx
  have Y0 := (abs_nonneg _).trans yb
  have Z0 := (abs_nonneg _).trans zb
  rw [show x * (y * z) - x' * (y' * z') = (x - x') * (y * z) + x' * ((y - y') * z) + x' * (y' * (z - z')) by ring]
  have h1 : |(x - x') * (y * z)| ≤ e * (Y * Z) := by rw [abs_mul, abs_mul]; gcongr
  have h2 : |x' * ((y - y') * z)| ≤ X * (e * Z) := by rw [abs_mul, abs_mul]; gcongr
  have h3 : |x' * (y' * (z - z'))| ≤ X * (Y * e) := by rw [abs_mul, abs_mul]; gcongr
  refine (abs_add_le _ _).trans ((add_le_add ((abs_add_le _ _).trans (add_le_add h1 h2)) h3).trans ?_)
  linarith

/-- Changing the coefficients of a matrix changes the determinant little. -/
theorem det_perturb {m n C : Fin 3 → Fin 3 → ℝ} {e : ℝ} (h : ∀ i j, |m i j - n i j| ≤ e) (hm : ∀ i j, |m i j| ≤ C i j) (hn : ∀ i j, |n i j| ≤ C i j) :
    |rdet m - rdet n| ≤ e * (padj C 0 0 + padj C 0 1 + padj C 0 2 + padj C 1 0 + padj C 1 1 + padj C 1 2 + padj C 2 0 + padj C 2 1 + padj C 2 2) := by
  have t1 := triple (h 0 0) (h 1 1) (h 2 2) (hn 0 0) (hm 1 1) (hn 1 1) (hm 2 2)
  have t2 := triple (h 0 0) (h 1 2) (h 2 1) (hn 0 0) (hm 1 2) (hn 1 2) (hm 2 1)
  have t3 := triple (h 0 1) (h 1 0) (h 2 2) (hn 0 1) (hm 1 0) (hn 1 0) (hm 2 2)
  have t4 := triple (h 0 1) (h 1 2) (h 2 0) (hn 0 1) (hm 1 2) (hn 1 2) (hm 2 0)
  have t5 := triple (h 0 2) (h 1 0) (h 2 1) (hn 0 2) (hm 1 0) (hn 1 0) (hm 2 1)
  have t6 := triple (h 0 2) (h 1 1) (h 2 0) (hn 0 2) (hm 1 1) (hn 1 1) (hm 2 0)
  rw [abs_le] at *
  simp only [rdet, padj, Matrix.cons_val]
  constructor <;> linarith

variable [FloatModel] [FineError]

/-- The third chromaticity coordinate. -/
theorem third {x y : ℝ} (x0 : 0 ≤ x) (y0 : 0 ≤ y) (h : x + y ≤ 1) {B : ℝ} (hB : 0.026 ≤ B) (hz : |1 - x - y| ≤ B) : Appr (1 - lit x - lit y) (1 - x - y) B 100 := by
  have b100 : (2 : ℝ) ≤ 2 ^ 100 := by norm_num
  obtain ⟨x', e1, h1⟩ := FineError.rnd_near x (by rw [abs_of_nonneg x0]; linarith)
  obtain ⟨y', e2, h2⟩ := FineError.rnd_near y (by rw [abs_of_nonneg y0]; linarith)
  rw [abs_of_nonneg x0] at h1; rw [abs_of_nonneg y0] at h2
  have h1' := abs_le.mp h1
  have h2' := abs_le.mp h2
  norm_num at h1' h2'
  have a1 : |1 - x'| ≤ 1 - x + x / 8388608 + 1 / 1267650600228229401496703205376 := by rw [abs_le]; constructor <;> linarith
  obtain ⟨d, e3, h3⟩ := FineError.rnd_near (1 - x') (a1.trans (by linarith))
  have h3' : |d - (1 - x')| ≤ (1 - x + x / 8388608 + 1 / 1267650600228229401496703205376) / 2 ^ 23 + 1 / 2 ^ 100 := h3.trans (by gcongr)
  have h3'' := abs_le.mp h3'
  norm_num at h3''
  have a2 : |d - y'| ≤ 1 - x - y + 3 / 8388608 := by rw [abs_le]; constructor <;> linarith
  obtain ⟨z, e4, h4⟩ := FineError.rnd_near (d - y') (a2.trans (by linarith))
  have h4' : |z - (d - y')| ≤ (1 - x - y + 3 / 8388608) / 2 ^ 23 + 1 / 2 ^ 100 := h4.trans (by gcongr)
  have h4'' := abs_le.mp h4'
  norm_num at h4''
  refine ⟨⟨z, ?_, ?_⟩, hz, by norm_num⟩
  · rw [Fl.lit, Fl.lit, e1, e2, one_def, fin_sub, e3, fin_sub, e4]
  · norm_num at hB ⊢
    rw [abs_le]; constructor <;> linarith

omit [FineError] in
theorem times_zero {x : Fl} {a B k : ℝ} (h : Appr x a B k) : x * 0 = fin 0 := by
  obtain ⟨y, rfl, -⟩ := h.near
  rw [zero_def, fin_mul, mul_zero, FloatModel.rnd_zero]

omit [FineError] in
theorem zero_plus : (0 : Fl) + fin 0 = fin 0 := by rw [zero_def, fin_add, add_zero, FloatModel.rnd_zero]

/-- A cell of the product of a matrix and a diagonal matrix. -/
theorem appr_diag {M : Fin 3 → Fin 3 → Fl} {A B : Fin 3 → Fin 3 → ℝ} {k : Fin 3 → ℝ} {t : Fin 3 → Fl} {r T : Fin 3 → ℝ} {l : ℝ} (h : ∀ i j, Appr (M i j) (A i j) (B i j) (k i))
    (ht : ∀ j, Appr (t j) (r j) (T j) l) (hk : ∀ i, k i ≤ 400) (hl : l ≤ 400) (lo : ∀ i j, 1e-20 ≤ B i j * T j) (hi : ∀ i j, B i j * T j ≤ 1000) (i j : Fin 3) :
    Appr (0 + M i 0 * (![![t 0, 0, 0], ![0, t 1, 0], ![0, 0, t 2]] : Fin 3 → Fin 3 → Fl) 0 j + M i 1 * (![![t 0, 0, 0], ![0, t 1, 0], ![0, 0, t 2]] : Fin 3 → Fin 3 → Fl) 1 j +
      M i 2 * (![![t 0, 0, 0], ![0, t 1, 0], ![0, 0, t 2]] : Fin 3 → Fin 3 → Fl) 2 j) (A i j * r j) (B i j * T j) (k i + l + 4.2) := by
  have z : Appr (fin 0) 0 0 0 := Appr.exact (by simp)
  have k0 := (h i 0).k0; have l0 := (ht 0).k0
  have hki := hk i
  have c0 := times_zero (h i 0); have c1 := times_zero (h i 1); have c2 := times_zero (h i 2)
  have cell : ∀ j, Appr (M i j * t j) (A i j * r j) (B i j * T j) (k i + l + 1.2) := fun j => (h i j).mul (ht j) (by linarith) (by linarith) (lo i j) (hi i j)
  have first : ∀ j, Appr (0 + M i j * t j) (A i j * r j) (B i j * T j) (k i + l + 2.2) := fun j =>
    ((cell j).zero_add (by norm_num; linarith) (lo i j) (hi i j)).weaken le_rfl (by linarith)
  have zadd : ∀ {x : Fl} {a b m : ℝ}, Appr x a b m → m ≤ 2000 → 1e-20 ≤ b → b ≤ 1000 → Appr (x + fin 0) a b (m + 1) := by
    intro x a b m hx hm h1 h2
    have := hx.add z m le_rfl hx.k0 (by linarith) (by simpa using h1) (by simpa using h2)
    simpa using this
  have l1 := lo i j; have u1 := hi i j
  fin_cases j
  · show Appr (0 + M i 0 * t 0 + M i 1 * 0 + M i 2 * 0) _ _ _
    rw [c1, c2]
    exact (zadd (zadd (first 0) (by norm_num; linarith) l1 u1) (by norm_num; linarith) l1 u1).weaken le_rfl (by norm_num; linarith)
  · show Appr (0 + M i 0 * 0 + M i 1 * t 1 + M i 2 * 0) _ _ _
    rw [c0, c2, zero_plus]
    have f1 := first 1
    rw [zero_def] at f1
    exact (zadd f1 (by norm_num; linarith) l1 u1).weaken le_rfl (by norm_num; linarith)
  · show Appr (0 + M i 0 * 0 + M i 1 * 0 + M i 2 * t 2) _ _ _
    have f2 := first 2
    have e : (fin 0 : Fl) + fin 0 = fin 0 := by rw [fin_add, add_zero, FloatModel.rnd_zero]
    rw [c0, c1, zero_plus, e]
    rw [zero_def] at f2
    exact f2.weaken le_rfl (by norm_num)

/-- The weights of the primaries. -/
noncomputable def weight (p : SpacePreset) (j : Fin 3) : ℝ :=
  (radj (presetPrimaries p) j 0 * presetWhite p 0 + radj (presetPrimaries p) j 1 * presetWhite p 1 + radj (presetPrimaries p) j 2 * presetWhite p 2) / rdet (presetPrimaries p)

omit [FloatModel] [FineError] in
theorem ideal_eq (p : SpacePreset) (i j : Fin 3) : SpaceDef.idealMat (presetPrimaries p) (presetWhite p) i j = presetPrimaries p i j * weight p j := by
  unfold SpaceDef.idealMat weight
  rw [Matrix.mul_diagonal, Matrix.mulVec, dotProduct, Fin.sum_univ_three, ← inv_eq, ← inv_eq, ← inv_eq]
  ring

/-- The computed RGB to XYZ matrix of a preset. -/
theorem transform_near (p : SpacePreset) : ∃ m : Fin 3 → Fin 3 → ℝ,
    SpaceDef.calcMatrix ⟨lit p.primaries.1, lit p.primaries.2.1, 1 - lit p.primaries.1 - lit p.primaries.2.1⟩
      ⟨lit p.primaries.2.2.1, lit p.primaries.2.2.2.1, 1 - lit p.primaries.2.2.1 - lit p.primaries.2.2.2.1⟩
      ⟨lit p.primaries.2.2.2.2.1, lit p.primaries.2.2.2.2.2, 1 - lit p.primaries.2.2.2.2.1 - lit p.primaries.2.2.2.2.2⟩ p.white.create.tri = ok (Mat.mat3 fun i j => fin (m i j)) ∧
    ∀ i j, |m i j - presetPrimaries p i j * weight p j| ≤ mag p i j * wide p j * 5.16e-5 := by
  set a := p.primaries.1 with ha
  set b := p.primaries.2.1 with hb
  set c := p.primaries.2.2.1 with hc
  set d := p.primaries.2.2.2.1 with hd
  set e := p.primaries.2.2.2.2.1 with he
  set f := p.primaries.2.2.2.2.2 with hf
  have hP : presetPrimaries p = ccMat a b c d e f := rfl
  have bounds := mag_le p
  have lits : ∀ i j, i ≠ 2 → Appr (lit (presetPrimaries p i j)) (presetPrimaries p i j) (mag p i j) 1 := fun i j _ =>
    Appr.lit (bounds i j).1 (le_trans (by norm_num) (bounds i j).2.2.1) ((bounds i j).2.2.2.trans (by norm_num))
  have h3 : ∀ j, Appr (1 - lit (presetPrimaries p 0 j) - lit (presetPrimaries p 1 j)) (presetPrimaries p 2 j) (mag p 2 j) 100 := by
    intro j
    have e : presetPrimaries p 2 j = 1 - presetPrimaries p 0 j - presetPrimaries p 1 j := by rw [hP]; fin_cases j <;> rfl
    have := bounds 2 j
    rw [e] at this ⊢
    exact third (bounds 0 j).2.1 (bounds 1 j).2.1 (by linarith [this.2.1]) this.2.2.1 this.1
  set M : Fin 3 → Fin 3 → Fl := ![![lit a, lit c, lit e], ![lit b, lit d, lit f], ![1 - lit a - lit b, 1 - lit c - lit d, 1 - lit e - lit f]] with hM
  have hrel : ApprMat M (presetPrimaries p) (mag p) ![1, 1, 100] := by
    intro i j
    refine ⟨?_, le_trans (by norm_num) (bounds i j).2.2.1, (bounds i j).2.2.2.trans (by norm_num)⟩
    fin_cases i
    · have := lits 0 j (by decide)
      rw [hP] at this ⊢
      fin_cases j <;> exact this
    · have := lits 1 j (by decide)
      rw [hP] at this ⊢
      fin_cases j <;> exact this
    · have := h3 j
      rw [hP] at this ⊢
      fin_cases j <;> exact this
  have hdet := det_le p
  have ksum : (![1, 1, 100] : Fin 3 → ℝ) 0 + (![1, 1, 100] : Fin 3 → ℝ) 1 + (![1, 1, 100] : Fin 3 → ℝ) 2 = 102 := by simp only [Matrix.cons_val]; norm_num
  have hdpos : 0 < det p := lt_of_lt_of_le (by norm_num) hdet.2.1
  have padj_bd : ∀ i j, 1e-8 ≤ padj (mag p) i j ∧ padj (mag p) i j ≤ 8 := fun i j => (appr_adj3 hrel (by rw [ksum]; norm_num) i j).2
  obtain ⟨N, hN, hNr⟩ := appr_invert hrel (by rw [ksum]; norm_num) (det p) 1.87 (le_trans (by norm_num) hdet.2.1) (hdet.1.trans (le_abs_self _)) (perm_le p) (by norm_num)
    (by rw [ksum]; norm_num) (fun i j => (padj_bd i j).2.trans (by norm_num at hdet ⊢; linarith))
  rw [ksum] at hNr
  have hw := white_le p
  set w : Fin 3 → Fl := fun i => lit (presetWhite p i) with hwdef
  have hwr : ∀ i, Appr (w i) (presetWhite p i) (presetWhite p i) 1 := fun i =>
    Appr.lit (le_of_eq (hw i).1) (le_trans (by norm_num) (hw i).2.1) ((hw i).2.2.trans (by norm_num))
  set t : Fin 3 → Fl := fun j => 0 + N j 0 * w 0 + N j 1 * w 1 + N j 2 * w 2 with htdef
  have lo1 : ∀ i j, 1e-20 ≤ padj (mag p) i j / det p * presetWhite p j := by
    intro i j
    have h1 : (1e-8 : ℝ) ≤ padj (mag p) i j / det p := by
      rw [le_div_iff₀ hdpos]
      have := (padj_bd i j).1
      norm_num at this ⊢; linarith [hdet.2.2]
    calc (1e-20 : ℝ) ≤ 1e-8 * 0.1 := by norm_num
      _ ≤ _ := by apply mul_le_mul h1 (hw j).2.1 (by norm_num) (by linarith [h1, (by norm_num : (0 : ℝ) ≤ 1e-8)])
  have hi1 : ∀ j, padj (mag p) j 0 / det p * presetWhite p 0 + padj (mag p) j 1 / det p * presetWhite p 1 + padj (mag p) j 2 / det p * presetWhite p 2 ≤ wide p j := by
    intro j
    have e : padj (mag p) j 0 / det p * presetWhite p 0 + padj (mag p) j 1 / det p * presetWhite p 1 + padj (mag p) j 2 / det p * presetWhite p 2 =
      (padj (mag p) j 0 * presetWhite p 0 + padj (mag p) j 1 * presetWhite p 1 + padj (mag p) j 2 * presetWhite p 2) / det p := by ring
    rw [e, div_le_iff₀ hdpos]
    exact (wide_le p j).1
  have htr : ∀ j, Appr (t j) (weight p j) (wide p j) 322 := by
    intro j
    have h5 := (wide_le p j).2.2
    have := appr_row (hNr j 0) (hNr j 1) (hNr j 2) (hwr 0) (hwr 1) (hwr 2) (by norm_num) (by norm_num) ⟨lo1 j 0, lo1 j 1, lo1 j 2⟩ ((hi1 j).trans (by linarith)) (by norm_num)
    have e : radj (presetPrimaries p) j 0 / rdet (presetPrimaries p) * presetWhite p 0 + radj (presetPrimaries p) j 1 / rdet (presetPrimaries p) * presetWhite p 1 +
        radj (presetPrimaries p) j 2 / rdet (presetPrimaries p) * presetWhite p 2 = weight p j := by unfold weight; ring
    rw [e] at this
    exact this.weaken (hi1 j) (by norm_num)
  have hmag0 : ∀ i j, 0 ≤ mag p i j := fun i j => le_trans (by norm_num) (bounds i j).2.2.1
  have cells := appr_diag (fun i j => (hrel i j).1) htr (fun i => by fin_cases i <;> norm_num) (by norm_num) (fun i j => by
      have := mul_le_mul (bounds i j).2.2.1 (wide_le p j).2.1 (by norm_num) (hmag0 i j)
      refine le_trans ?_ this; norm_num) (fun i j => by
      have h0 : (0 : ℝ) ≤ wide p j := le_trans (by norm_num) (wide_le p j).2.1
      have := mul_le_mul (bounds i j).2.2.2 (wide_le p j).2.2 h0 (by norm_num)
      linarith)
  choose m hm using fun i j => (cells i j).near
  refine ⟨m, ?_, fun i j => ?_⟩
  · unfold SpaceDef.calcMatrix
    simp only
    rw [Mat.ofSquareList_mat3, ok_bind, ← hM, hN, ok_bind]
    have hwt : [p.white.create.tri.x, p.white.create.tri.y, p.white.create.tri.z] = [w 0, w 1, w 2] := rfl
    rw [hwt, Mat.mulVec_mat3, ok_bind]
    simp only [Mat.vget, List.getElem?_cons_zero, List.getElem?_cons_succ, ok_bind]
    rw [Mat.ofSquareList_mat3, ok_bind, Mat.mul_mat3]
    congr 2
    funext i j
    exact (hm i j).1
  · refine (hm i j).2.trans ?_
    have h0 : (0 : ℝ) ≤ wide p j := le_trans (by norm_num) (wide_le p j).2.1
    have hki : (![1, 1, 100] : Fin 3 → ℝ) i ≤ 100 := by fin_cases i <;> norm_num
    have : 0 ≤ mag p i j * wide p j := mul_nonneg (hmag0 i j) h0
    have : ((![1, 1, 100] : Fin 3 → ℝ) i + 322 + 4.2) * (mag p i j * wide p j) ≤ 430 * (mag p i j * wide p j) := by
      gcongr
      norm_num; linarith
    norm_num at this ⊢
    linarith

/-- What a preset stores, in single precision: `m` is the RGB to XYZ matrix, and the other matrix is close to the inverse of `m`. -/
theorem preset_near (p : SpacePreset) (ws : WhiteStore) (q g : Nat) : ∃ s, ∃ m : Fin 3 → Fin 3 → ℝ, ∃ N, p.create ws q g = ok s ∧ s.white = some q ∧ s.gamma = some g ∧
    s.transform = Mat.mat3 (fun i j => fin (m i j)) ∧ s.inverse = Mat.mat3 N ∧
    (∀ i j, |m i j - presetPrimaries p i j * weight p j| ≤ mag p i j * wide p j * 5.16e-5) ∧ (∀ i j, |m i j| ≤ coef p i j) ∧ det2 p ≤ |rdet m| ∧
    ∀ i j, Appr (N i j) (radj m i j / rdet m) (padj (coef p) i j / det2 p) 24.3 := by
  obtain ⟨m, hm, he⟩ := transform_near p
  have bounds := mag_le p
  have hdet := det_le p
  have hdpos : 0 < det p := lt_of_lt_of_le (by norm_num) hdet.2.1
  have hrpos : 0 < rdet (presetPrimaries p) := lt_of_lt_of_le hdpos hdet.1
  have hwt : ∀ j, low p j ≤ |weight p j| ∧ |weight p j| ≤ high p j ∧ 0 ≤ low p j := by
    intro j
    obtain ⟨h1, h2, h3, h4⟩ := weight_le p j
    unfold weight
    rw [abs_div, abs_of_pos hrpos, le_div_iff₀ hrpos, div_le_iff₀ hrpos]
    exact ⟨h1, h2, h3⟩
  have hideal : ∀ i j, |presetPrimaries p i j * weight p j| ≤ presetPrimaries p i j * high p j := by
    intro i j
    rw [abs_mul, abs_of_nonneg (bounds i j).2.1]
    exact mul_le_mul_of_nonneg_left (hwt j).2.1 (bounds i j).2.1
  have herr0 : ∀ i j, 0 ≤ mag p i j * wide p j := fun i j =>
    mul_nonneg (le_trans (by norm_num) (bounds i j).2.2.1) (le_trans (by norm_num) (wide_le p j).2.1)
  have hcoef : ∀ i j, |presetPrimaries p i j * weight p j| ≤ coef p i j := by
    intro i j
    refine (hideal i j).trans ?_
    unfold coef
    have := herr0 i j
    norm_num; linarith
  have hmc : ∀ i j, |m i j| ≤ coef p i j := by
    intro i j
    have h1 := abs_add_le (m i j - presetPrimaries p i j * weight p j) (presetPrimaries p i j * weight p j)
    rw [sub_add_cancel] at h1
    refine h1.trans ((add_le_add (he i j) (hideal i j)).trans ?_)
    unfold coef
    have := herr0 i j
    norm_num; linarith
  have hd2 := det2_le p
  have hdm : det2 p ≤ |rdet m| := by
    have h1 := det_perturb (fun i j => (he i j).trans (error_le p i j)) hmc hcoef
    have h2 : rdet (fun i j => presetPrimaries p i j * weight p j) = rdet (presetPrimaries p) * (weight p 0 * weight p 1 * weight p 2) := by
      unfold rdet; ring
    have h3 : det p * low p 0 * low p 1 * low p 2 ≤ |rdet (fun i j => presetPrimaries p i j * weight p j)| := by
      rw [h2, abs_mul, abs_mul, abs_mul, abs_of_pos hrpos]
      have l0 := hwt 0; have l1 := hwt 1; have l2 := hwt 2
      have := hdet.1
      have := l0.1; have := l0.2.2; have := l1.1; have := l1.2.2; have := l2.1; have := l2.2.2
      calc det p * low p 0 * low p 1 * low p 2 = det p * (low p 0 * low p 1 * low p 2) := by ring
        _ ≤ _ := by gcongr
    have h4 := abs_sub_abs_le_abs_sub (rdet fun i j => presetPrimaries p i j * weight p j) (rdet m)
    rw [abs_sub_comm] at h4
    linarith [hd2.1]
  have hd2pos : 0 < det2 p := lt_of_lt_of_le (by norm_num) hd2.2.1
  have hrel : ApprMat (fun i j => fin (m i j)) m (coef p) (fun _ => 0) := fun i j =>
    ⟨Appr.exact (hmc i j), (coef_le p i j).1, (coef_le p i j).2.trans (by norm_num)⟩
  have padj_bd : ∀ i j, 1e-8 ≤ padj (coef p) i j ∧ padj (coef p) i j ≤ 8 := fun i j => (appr_adj3 hrel (by norm_num) i j).2
  obtain ⟨N, hN, hNr⟩ := appr_invert hrel (by norm_num) (det2 p) 1.9 (le_trans (by norm_num) hd2.2.1) hdm (perm2_le p) (by norm_num) (by norm_num)
    (fun i j => (padj_bd i j).2.trans (by have := hd2.2.1; norm_num at this ⊢; linarith))
  refine ⟨⟨⟨lit p.primaries.1, lit p.primaries.2.1, 1 - lit p.primaries.1 - lit p.primaries.2.1⟩,
      ⟨lit p.primaries.2.2.1, lit p.primaries.2.2.2.1, 1 - lit p.primaries.2.2.1 - lit p.primaries.2.2.2.1⟩,
      ⟨lit p.primaries.2.2.2.2.1, lit p.primaries.2.2.2.2.2, 1 - lit p.primaries.2.2.2.2.1 - lit p.primaries.2.2.2.2.2⟩, some q, Mat.mat3 fun i j => fin (m i j), Mat.mat3 N, some g⟩,
    m, N, ?_, rfl, rfl, rfl, rfl, he, hmc, hdm, fun i j => (hNr i j).weaken le_rfl (by norm_num)⟩
  simp only [SpacePreset.create, SpaceDef.construct, SpaceDef.recompute, Function.update_self, hm, Mat.assign_mat3, hN]

end Fine

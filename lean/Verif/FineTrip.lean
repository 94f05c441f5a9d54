import Verif.FinePresets

/-!
# Linear RGB to XYZ and back in single precision
-/

open Outcome Fl

namespace Fine

variable [FloatModel] [FineError]

omit [FloatModel] [FineError] in
theorem coef_nonneg (p : SpacePreset) (i j : Fin 3) : 0 ≤ coef p i j := le_trans (by norm_num) (coef_le p i j).1

/-- The negative coefficients of the computed matrix are tiny. -/
theorem low_coef (p : SpacePreset) (hp : p ≠ .cieRGB) {m : Fin 3 → Fin 3 → ℝ} (h : ∀ i j, |m i j - presetPrimaries p i j * weight p j| ≤ mag p i j * wide p j * 5.16e-5) (i j : Fin 3) :
    -neg p ≤ m i j := by
  have hdet := det_le p
  have hrpos : 0 < rdet (presetPrimaries p) := lt_of_lt_of_le (lt_of_lt_of_le (by norm_num) hdet.2.1) hdet.1
  have h0 : 0 ≤ weight p j := div_nonneg (weight_pos p hp j) hrpos.le
  have h1 : low p j ≤ weight p j := by
    have := (weight_le p j).1
    rw [abs_of_nonneg (weight_pos p hp j)] at this
    unfold weight
    rw [le_div_iff₀ hrpos]
    exact this
  have h2 := mul_le_mul_of_nonneg_left h1 (mag_le p i j).2.1
  have h3 := neg_le p i j
  have h4 := abs_le.mp (h i j)
  linarith

omit [FineError] in
theorem clamp_hundred {x : Fl} {u e ν : ℝ} (h : Near x u e) (h0 : 0 ≤ e) (hν : 0 ≤ ν) (hl : -ν ≤ u) (hu : u + e ≤ 100) :
    ∃ y, Color.clamp x 100 0 = fin y ∧ |y - u| ≤ e + ν ∧ 0 ≤ y ∧ y ≤ max 0 (u + e) := by
  obtain ⟨r, rfl, hr⟩ := h
  rw [abs_le] at hr
  by_cases hneg : r < 0
  · refine ⟨0, ?_, ?_, le_rfl, le_max_left _ _⟩
    · simp [Color.clamp_fin, hneg.not_ge, hneg.le]
    · rw [abs_le]; constructor <;> linarith
  · rw [not_lt] at hneg
    refine ⟨r, ?_, ?_, hneg, le_max_of_le_right (by linarith)⟩
    · simp [Color.clamp_fin, hneg]
      linarith
    · rw [abs_le]; constructor <;> linarith

/-- Linear RGB → XYZ → linear RGB: nothing moves by more than 6.4e-5. -/
theorem linear_trip (p : SpacePreset) (hp : p ≠ .cieRGB) (ws : WhiteStore) (q g : Nat) : ∃ s, p.create ws q g = ok s ∧ s.white = some q ∧ s.gamma = some g ∧
    ∀ l : Fin 3 → ℝ, (∀ i, 0 ≤ l i ∧ l i ≤ 1) → ∃ X : Fin 3 → Fl, ∃ x : Fin 3 → ℝ, ∃ Y : Fin 3 → Fl, s.transform.mulVec [fin (l 0), fin (l 1), fin (l 2)] = ok [X 0, X 1, X 2] ∧
      (∀ i, Color.clamp (X i) 100 0 = fin (x i)) ∧ s.inverse.mulVec [fin (x 0), fin (x 1), fin (x 2)] = ok [Y 0, Y 1, Y 2] ∧ ∀ i, Near (Y i) (l i) 6.4e-5 := by
  obtain ⟨s, m, N, hs, hw, hg, ht, hi, he, hmc, hd, hN⟩ := preset_near p ws q g
  refine ⟨s, hs, hw, hg, fun l hl => ?_⟩
  have hlow := low_coef p hp he
  have hν := neg_nonneg p
  have hd2 := det2_le p
  have hd2pos : 0 < det2 p := lt_of_lt_of_le (by norm_num) hd2.2.1
  have hr0 : rdet m ≠ 0 := by
    intro h0; rw [h0, abs_zero] at hd; linarith
  set XB : Fin 3 → ℝ := fun i => coef p i 0 + coef p i 1 + coef p i 2 with hXB
  have XB_lo : ∀ i, 3e-4 ≤ XB i := fun i => by
    have := (coef_le p i 0).1; have := (coef_le p i 1).1; have := (coef_le p i 2).1
    simp only [hXB]; norm_num at *; linarith
  have XB_hi : ∀ i, XB i ≤ 3.6 := fun i => by
    have := (coef_le p i 0).2; have := (coef_le p i 1).2; have := (coef_le p i 2).2
    simp only [hXB]; norm_num at *; linarith
  set u : Fin 3 → ℝ := fun i => m i 0 * l 0 + m i 1 * l 1 + m i 2 * l 2 with hu
  set X : Fin 3 → Fl := fun i => 0 + fin (m i 0) * fin (l 0) + fin (m i 1) * fin (l 1) + fin (m i 2) * fin (l 2) with hX
  have lrel : ∀ i, Appr (fin (l i)) (l i) 1 0 := fun i => Appr.exact (by rw [abs_of_nonneg (hl i).1]; exact (hl i).2)
  have hXr : ∀ i, Appr (X i) (u i) (XB i) 4.2 := by
    intro i
    have c1 := coef_le p i 0; have c2 := coef_le p i 1; have c3 := coef_le p i 2
    have := appr_row (Appr.exact (hmc i 0)) (Appr.exact (hmc i 1)) (Appr.exact (hmc i 2)) (lrel 0) (lrel 1) (lrel 2) (by norm_num) (by norm_num)
      ⟨by norm_num at *; linarith, by norm_num at *; linarith, by norm_num at *; linarith⟩ (by norm_num at *; linarith) (by norm_num)
    exact this.weaken (by simp [hXB]) (by norm_num)
  have hu_low : ∀ i, -(3 * neg p) ≤ u i := by
    intro i
    have key : ∀ j, -neg p ≤ m i j * l j := by
      intro j
      have h1 := hlow i j
      have h2 := hl j
      nlinarith
    have := key 0; have := key 1; have := key 2
    simp only [hu]; linarith
  have hu_abs : ∀ i, u i ≤ XB i := fun i => (le_abs_self _).trans (hXr i).le
  have hε : ∀ i, 0 ≤ 4.2 * XB i * 1.2e-7 := fun i => by have := XB_lo i; norm_num at *; linarith
  choose x hx1 hx2 hx3 hx4 using fun i => clamp_hundred (hXr i).near (hε i) (by linarith : 0 ≤ 3 * neg p) (hu_low i)
    (by have := XB_hi i; have := hu_abs i; norm_num at *; linarith)
  set Y : Fin 3 → Fl := fun i => 0 + N i 0 * fin (x 0) + N i 1 * fin (x 1) + N i 2 * fin (x 2) with hY
  refine ⟨X, x, Y, ?_, hx1, ?_, fun i => ?_⟩
  · rw [ht, Mat.mulVec_mat3]
  · rw [hi, Mat.mulVec_mat3]
  · have xrel : ∀ j, Appr (fin (x j)) (x j) (XB j * 1.000001) 0 := fun j => by
      refine Appr.exact ?_
      rw [abs_of_nonneg (hx3 j)]
      refine (hx4 j).trans (max_le ?_ ?_)
      · have := XB_lo j; norm_num at *; linarith
      · have := XB_lo j; have := hu_abs j; norm_num at *; linarith
    have hrel : ApprMat (fun i j => fin (m i j)) m (coef p) (fun _ => 0) := fun i j =>
      ⟨Appr.exact (hmc i j), (coef_le p i j).1, (coef_le p i j).2.trans (by norm_num)⟩
    have padj_bd : ∀ i j, 1e-8 ≤ padj (coef p) i j ∧ padj (coef p) i j ≤ 8 := fun i j => (appr_adj3 hrel (by norm_num) i j).2
    have hq : ∀ j, 1e-8 ≤ padj (coef p) i j / det2 p := fun j => by
      rw [le_div_iff₀ hd2pos]
      have := (padj_bd i j).1
      norm_num at *; linarith
    have lo : ∀ j, 1e-20 ≤ padj (coef p) i j / det2 p * (XB j * 1.000001) := fun j => by
      have h1 := hq j
      have h2 : (3e-4 : ℝ) ≤ XB j * 1.000001 := by have := XB_lo j; norm_num at *; linarith
      exact le_trans (by norm_num) (mul_le_mul h1 h2 (by norm_num) (le_trans (by norm_num) h1))
    have htl := trip_le p i
    have hsum : padj (coef p) i 0 / det2 p * (XB 0 * 3.936e-6 + 3 * neg p) + padj (coef p) i 1 / det2 p * (XB 1 * 3.936e-6 + 3 * neg p) +
        padj (coef p) i 2 / det2 p * (XB 2 * 3.936e-6 + 3 * neg p) ≤ 6.4e-5 := by
      rw [← div_le_iff₀ hd2pos] at htl
      refine le_trans (le_of_eq ?_) htl
      simp only [hXB]; ring
    set A0 := padj (coef p) i 0 / det2 p with hA0
    set A1 := padj (coef p) i 1 / det2 p with hA1
    set A2 := padj (coef p) i 2 / det2 p with hA2
    have hA0p : 0 ≤ A0 := le_trans (by norm_num) (hq 0)
    have hA1p : 0 ≤ A1 := le_trans (by norm_num) (hq 1)
    have hA2p : 0 ≤ A2 := le_trans (by norm_num) (hq 2)
    have n0 := mul_nonneg hA0p hν; have n1 := mul_nonneg hA1p hν; have n2 := mul_nonneg hA2p hν
    have hx0 := XB_lo 0; have hx1' := XB_lo 1; have hx2' := XB_lo 2
    have p0 := mul_nonneg hA0p (le_trans (by norm_num) hx0 : 0 ≤ XB 0)
    have p1 := mul_nonneg hA1p (le_trans (by norm_num) hx1' : 0 ≤ XB 1)
    have p2 := mul_nonneg hA2p (le_trans (by norm_num) hx2' : 0 ≤ XB 2)
    have row := appr_row (hN i 0) (hN i 1) (hN i 2) (xrel 0) (xrel 1) (xrel 2) (by norm_num) (by norm_num) ⟨lo 0, lo 1, lo 2⟩
      (by norm_num at hsum ⊢; linarith) (by norm_num)
    obtain ⟨y, hy, hyn⟩ := row.near
    refine ⟨y, hy, ?_⟩
    -- the exact inverse
    have hinv : radj m i 0 / rdet m * u 0 + radj m i 1 / rdet m * u 1 + radj m i 2 / rdet m * u 2 = l i := by
      simp only [hu]
      rw [div_mul_eq_mul_div, div_mul_eq_mul_div, div_mul_eq_mul_div, ← add_div, ← add_div, div_eq_iff hr0]
      fin_cases i <;> simp only [radj, rdet, Matrix.cons_val, Fin.zero_eta, Fin.mk_one, Fin.reduceFinMk] <;> ring
    have hstep : ∀ j A, |radj m i j / rdet m| ≤ A → |radj m i j / rdet m * x j - radj m i j / rdet m * u j| ≤ A * (4.2 * XB j * 1.2e-7 + 3 * neg p) := by
      intro j A hA
      rw [← mul_sub, abs_mul]
      exact mul_le_mul hA (hx2 j) (abs_nonneg _) ((abs_nonneg _).trans hA)
    have s0 := abs_le.mp (hstep 0 A0 (hN i 0).le)
    have s1 := abs_le.mp (hstep 1 A1 (hN i 1).le)
    have s2 := abs_le.mp (hstep 2 A2 (hN i 2).le)
    rw [abs_le] at hyn ⊢
    norm_num at hyn s0 s1 s2 hsum ⊢
    constructor <;> linarith

end Fine

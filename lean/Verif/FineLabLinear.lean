import Verif.FineTrip
import Verif.LabGamutLemmas

/-!
# Linear RGB to XYZ and back when XYZ is disturbed on the way
-/

open Outcome Fl

namespace Fine

macro "lab_numbers" : tactic => `(tactic| (simp only [det2, padj, coef, mag, wide, high, neg, presetPrimaries, ccMat, SpacePreset.primaries, presetWhite, SpacePreset.white, WhitePreset.literals, Matrix.of_apply, Matrix.cons_val',
  Matrix.cons_val, Fin.zero_eta, Fin.mk_one, Fin.reduceFinMk, Fin.isValue] <;> norm_num [abs_of_nonneg, abs_of_nonpos]))

theorem trip_lab (p : SpacePreset) (hp : LabSpec.Fits p) (i : Fin 3) :
    padj (coef p) i 0 * ((coef p 0 0 + coef p 0 1 + coef p 0 2) * 3.936e-6 + 3 * neg p + 7.101e-6) +
    padj (coef p) i 1 * ((coef p 1 0 + coef p 1 1 + coef p 1 2) * 3.936e-6 + 3 * neg p + 7.101e-6) +
    padj (coef p) i 2 * ((coef p 2 0 + coef p 2 1 + coef p 2 2) * 3.936e-6 + 3 * neg p + 7.101e-6) ≤ 9.3e-5 * det2 p := by
  cases p <;> simp only [LabSpec.Fits] at hp <;> fin_cases i <;> lab_numbers

theorem trip_white (p : SpacePreset) (hp : LabSpec.Fits p) (i : Fin 3) :
    padj (coef p) i 0 * ((coef p 0 0 + coef p 0 1 + coef p 0 2) * 3.936e-6 + 3 * neg p + 2.801e-4) +
    padj (coef p) i 1 * ((coef p 1 0 + coef p 1 1 + coef p 1 2) * 3.936e-6 + 3 * neg p + 2.801e-4) +
    padj (coef p) i 2 * ((coef p 2 0 + coef p 2 1 + coef p 2 2) * 3.936e-6 + 3 * neg p + 2.801e-4) ≤ 2.5e-3 * det2 p := by
  cases p <;> simp only [LabSpec.Fits] at hp <;> fin_cases i <;> lab_numbers

theorem row_lab (p : SpacePreset) (hp : LabSpec.Fits p) (i : Fin 3) :
    mag p i 0 * wide p 0 * 5.16e-5 + mag p i 1 * wide p 1 * 5.16e-5 + mag p i 2 * wide p 2 * 5.16e-5 + (4.2 * (coef p i 0 + coef p i 1 + coef p i 2) * 1.2e-7 + 3 * neg p) ≤
      2.38e-4 * presetWhite p i := by
  cases p <;> simp only [LabSpec.Fits] at hp <;> fin_cases i <;> lab_numbers

theorem row_lab_y (p : SpacePreset) (hp : LabSpec.Fits p) :
    mag p 1 0 * wide p 0 * 5.16e-5 + mag p 1 1 * wide p 1 * 5.16e-5 + mag p 1 2 * wide p 2 * 5.16e-5 + (4.2 * (coef p 1 0 + coef p 1 1 + coef p 1 2) * 1.2e-7 + 3 * neg p) ≤ 2.08e-4 := by
  cases p <;> simp only [LabSpec.Fits] at hp <;> lab_numbers

theorem low_entry (p : SpacePreset) (hp : p ≠ .cieRGB) {m : Fin 3 → Fin 3 → ℝ} (h : ∀ i j, |m i j - presetPrimaries p i j * weight p j| ≤ mag p i j * wide p j * 5.16e-5) (i j : Fin 3) :
    presetPrimaries p i j * low p j - mag p i j * wide p j * 5.16e-5 ≤ m i j := by
  have hdet := det_le p
  have hrpos : 0 < rdet (presetPrimaries p) := lt_of_lt_of_le (lt_of_lt_of_le (by norm_num) hdet.2.1) hdet.1
  have h1 : low p j ≤ weight p j := by
    have := (weight_le p j).1
    rw [abs_of_nonneg (weight_pos p hp j)] at this
    unfold weight
    rw [le_div_iff₀ hrpos]
    exact this
  have h2 := mul_le_mul_of_nonneg_left h1 (mag_le p i j).2.1
  have := abs_le.mp (h i j)
  linarith

variable [FloatModel] [FineError]

theorem rnd_low {r : ℝ} (h0 : 0 ≤ r) (h1 : r ≤ 100) : ∃ y, rnd r = fin y ∧ 0.999 * r - 1e-25 ≤ y ∧ y ≤ 1.001 * r + 1e-25 := by
  obtain ⟨y, e, h⟩ := FineError.rnd_near r (by rw [abs_of_nonneg h0]; exact h1.trans (by norm_num))
  rw [abs_of_nonneg h0] at h
  have := abs_le.mp h
  refine ⟨y, e, ?_, ?_⟩ <;> (norm_num at *; linarith)

/-- A sum of products that are not negative keeps its size. -/
theorem row_low (a b c x y z : ℝ) (h0 : 0 ≤ a * x) (h1 : 0 ≤ b * y) (h2 : 0 ≤ c * z) (u0 : a * x ≤ 1.2) (u1 : b * y ≤ 1.2) (u2 : c * z ≤ 1.2) :
    ∃ v, 0 + fin a * fin x + fin b * fin y + fin c * fin z = fin v ∧ 0.99 * (a * x + b * y + c * z) - 1e-20 ≤ v := by
  obtain ⟨p, ep, p1, p2⟩ := rnd_low h0 (u0.trans (by norm_num))
  obtain ⟨q, eq, q1, q2⟩ := rnd_low h1 (u1.trans (by norm_num))
  obtain ⟨r, er, r1, r2⟩ := rnd_low h2 (u2.trans (by norm_num))
  have nn : ∀ {t s : ℝ}, 0 ≤ t → rnd t = fin s → 0 ≤ s := fun ht e => by
    have := FloatModel.rnd_mono _ _ ht
    rwa [FloatModel.rnd_zero, e, fin_le] at this
  have p0 := nn h0 ep; have q0 := nn h1 eq; have r0 := nn h2 er
  obtain ⟨s, es, s1, s2⟩ := rnd_low p0 (by norm_num at *; linarith)
  have s0 := nn p0 es
  obtain ⟨t, et, t1, t2⟩ := rnd_low (add_nonneg s0 q0) (by norm_num at *; linarith)
  have t0 := nn (add_nonneg s0 q0) et
  obtain ⟨v, ev, v1, v2⟩ := rnd_low (add_nonneg t0 r0) (by norm_num at *; linarith)
  refine ⟨v, ?_, ?_⟩
  · rw [zero_def, fin_mul, fin_mul, fin_mul, ep, eq, er, fin_add, zero_add, es, fin_add, et, fin_add, ev]
  · norm_num at *; linarith

/-- Linear RGB → XYZ, a disturbance of XYZ by at most `ε`, XYZ → linear RGB. -/
theorem disturbed_trip (p : SpacePreset) (hp : p ≠ .cieRGB) (ws : WhiteStore) (q g : Nat) : ∃ s, p.create ws q g = ok s ∧ s.white = some q ∧ s.gamma = some g ∧
    ∀ l : Fin 3 → ℝ, (∀ i, 0 ≤ l i ∧ l i ≤ 1) → ∃ X : Fin 3 → Fl, ∃ x : Fin 3 → ℝ, s.transform.mulVec [fin (l 0), fin (l 1), fin (l 2)] = ok [X 0, X 1, X 2] ∧
      (∀ i, Color.clamp (X i) 100 0 = fin (x i)) ∧ (∀ i, 0 ≤ x i) ∧ (∀ i, x i ≤ (coef p i 0 + coef p i 1 + coef p i 2) * 1.000001) ∧
      (∀ i, (∀ j, 8e-5 ≤ presetPrimaries p i j * low p j - mag p i j * wide p j * 5.16e-5) → (∃ j, 6e-5 ≤ l j) → 1e-9 ≤ x i) ∧ ((∀ j, l j = 0) → ∀ i, x i = 0) ∧
      (∀ i, |x i - (presetPrimaries p i 0 * weight p 0 * l 0 + presetPrimaries p i 1 * weight p 1 * l 1 + presetPrimaries p i 2 * weight p 2 * l 2)| ≤
        mag p i 0 * wide p 0 * 5.16e-5 + mag p i 1 * wide p 1 * 5.16e-5 + mag p i 2 * wide p 2 * 5.16e-5 + (4.2 * (coef p i 0 + coef p i 1 + coef p i 2) * 1.2e-7 + 3 * neg p)) ∧
      ∀ (x' : Fin 3 → ℝ) (ε : ℝ), 0 ≤ ε → ε ≤ 1e-3 → (∀ j, 0 ≤ x' j) → (∀ j, |x' j - x j| ≤ ε) → ∃ Y : Fin 3 → Fl, s.inverse.mulVec [fin (x' 0), fin (x' 1), fin (x' 2)] = ok [Y 0, Y 1, Y 2] ∧
        ∀ i τ, τ ≤ 2.5e-3 → padj (coef p) i 0 * ((coef p 0 0 + coef p 0 1 + coef p 0 2) * 3.936e-6 + 3 * neg p + (ε * 1.00001 + 1e-10)) +
          padj (coef p) i 1 * ((coef p 1 0 + coef p 1 1 + coef p 1 2) * 3.936e-6 + 3 * neg p + (ε * 1.00001 + 1e-10)) +
          padj (coef p) i 2 * ((coef p 2 0 + coef p 2 1 + coef p 2 2) * 3.936e-6 + 3 * neg p + (ε * 1.00001 + 1e-10)) ≤ τ * det2 p → Near (Y i) (l i) τ := by
  obtain ⟨s, m, N, hs, hw, hg, ht, hi, he, hmc, hd, hN⟩ := preset_near p ws q g
  refine ⟨s, hs, hw, hg, fun l hl => ?_⟩
  have hlow := low_coef p hp he
  have hν := neg_nonneg p
  have hd2 := det2_le p
  have hd2pos : 0 < det2 p := lt_of_lt_of_le (by norm_num) hd2.2.1
  have hr0 : rdet m ≠ 0 := by
    intro h0; rw [h0, abs_zero] at hd; linarith
  set XB : Fin 3 → ℝ := fun i => coef p i 0 + coef p i 1 + coef p i 2 with hXB
  have XB_lo : ∀ i, 3e-4 ≤ XB i := fun i => by
    have := (coef_le p i 0).1; have := (coef_le p i 1).1; have := (coef_le p i 2).1
    simp only [hXB]; norm_num at *; linarith
  have XB_hi : ∀ i, XB i ≤ 3.6 := fun i => by
    have := (coef_le p i 0).2; have := (coef_le p i 1).2; have := (coef_le p i 2).2
    simp only [hXB]; norm_num at *; linarith
  set u : Fin 3 → ℝ := fun i => m i 0 * l 0 + m i 1 * l 1 + m i 2 * l 2 with hu
  set X : Fin 3 → Fl := fun i => 0 + fin (m i 0) * fin (l 0) + fin (m i 1) * fin (l 1) + fin (m i 2) * fin (l 2) with hX
  have lrel : ∀ i, Appr (fin (l i)) (l i) 1 0 := fun i => Appr.exact (by rw [abs_of_nonneg (hl i).1]; exact (hl i).2)
  have hXr : ∀ i, Appr (X i) (u i) (XB i) 4.2 := by
    intro i
    have c1 := coef_le p i 0; have c2 := coef_le p i 1; have c3 := coef_le p i 2
    have := appr_row (Appr.exact (hmc i 0)) (Appr.exact (hmc i 1)) (Appr.exact (hmc i 2)) (lrel 0) (lrel 1) (lrel 2) (by norm_num) (by norm_num)
      ⟨by norm_num at *; linarith, by norm_num at *; linarith, by norm_num at *; linarith⟩ (by norm_num at *; linarith) (by norm_num)
    exact this.weaken (by simp [hXB]) (by norm_num)
  have hu_low : ∀ i, -(3 * neg p) ≤ u i := by
    intro i
    have key : ∀ j, -neg p ≤ m i j * l j := by
      intro j
      have h1 := hlow i j
      have h2 := hl j
      nlinarith
    have := key 0; have := key 1; have := key 2
    simp only [hu]; linarith
  have hu_abs : ∀ i, u i ≤ XB i := fun i => (le_abs_self _).trans (hXr i).le
  have hε : ∀ i, 0 ≤ 4.2 * XB i * 1.2e-7 := fun i => by have := XB_lo i; norm_num at *; linarith
  choose x hx1 hx2 hx3 hx4 using fun i => clamp_hundred (hXr i).near (hε i) (by linarith : 0 ≤ 3 * neg p) (hu_low i)
    (by have := XB_hi i; have := hu_abs i; norm_num at *; linarith)
  have hx5 : ∀ i, x i ≤ XB i * 1.000001 := fun i => by
    refine (hx4 i).trans (max_le ?_ ?_)
    · have := XB_lo i; norm_num at *; linarith
    · have := XB_lo i; have := hu_abs i; norm_num at *; linarith
  refine ⟨X, x, ?_, hx1, hx3, hx5, fun i hc ⟨j, hj⟩ => ?_, fun hz i => ?_, fun i => ?_, fun x' ε ε0 ε1 x0' hx' => ?_⟩
  · rw [ht, Mat.mulVec_mat3]
  · have hm : ∀ j, 8e-5 ≤ m i j := fun j => (hc j).trans (low_entry p hp he i j)
    have hmu : ∀ j, m i j ≤ 1.2 := fun j => by
      have h1 := (le_abs_self _).trans (hmc i j)
      have := coef_le p i j
      norm_num at *; linarith
    have hpos : ∀ j, 0 ≤ m i j * l j ∧ m i j * l j ≤ 1.2 := fun j => by
      have := hm j; have := hmu j; have := hl j
      constructor
      · exact mul_nonneg (le_trans (by norm_num) (hm j)) (hl j).1
      · norm_num at *; nlinarith
    obtain ⟨v, hv, hv1⟩ := row_low (m i 0) (m i 1) (m i 2) (l 0) (l 1) (l 2) (hpos 0).1 (hpos 1).1 (hpos 2).1 (hpos 0).2 (hpos 1).2 (hpos 2).2
    have hbig : 4.8e-9 ≤ m i 0 * l 0 + m i 1 * l 1 + m i 2 * l 2 := by
      have key : 4.8e-9 ≤ m i j * l j := by
        have := mul_le_mul (hm j) hj (by norm_num) (le_trans (by norm_num) (hm j))
        norm_num at *; linarith
      have := (hpos 0).1; have := (hpos 1).1; have := (hpos 2).1
      have hj3 : m i j * l j ≤ m i 0 * l 0 + m i 1 * l 1 + m i 2 * l 2 := by
        fin_cases j <;> simp only [Fin.zero_eta, Fin.mk_one, Fin.reduceFinMk] <;> linarith
      linarith
    have e := hx1 i
    rw [show X i = fin v from hv, show (100 : Fl) = fin 100 by simp, zero_def, Color.clamp_fin, fin_inj] at e
    rw [← e]
    refine le_max_of_le_left (le_min ?_ (by norm_num))
    norm_num at *
    linarith
  · have e := hx1 i
    rw [show X i = fin 0 by simp only [hX, hz, zero_def, fin_mul, mul_zero, FloatModel.rnd_zero, fin_add, add_zero], show (100 : Fl) = fin 100 by simp, zero_def, Color.clamp_fin, fin_inj] at e
    rw [← e]; norm_num
  · have key : ∀ j, |m i j * l j - presetPrimaries p i j * weight p j * l j| ≤ mag p i j * wide p j * 5.16e-5 := by
      intro j
      rw [← sub_mul, abs_mul, abs_of_nonneg (hl j).1]
      exact (mul_le_of_le_one_right (abs_nonneg _) (hl j).2).trans (he i j)
    have k0 := abs_le.mp (key 0); have k1 := abs_le.mp (key 1); have k2 := abs_le.mp (key 2)
    have k3 := abs_le.mp (hx2 i)
    simp only [hu, hXB] at k3
    rw [abs_le]
    constructor <;> linarith
  set Y : Fin 3 → Fl := fun i => 0 + N i 0 * fin (x' 0) + N i 1 * fin (x' 1) + N i 2 * fin (x' 2) with hY
  refine ⟨Y, ?_, fun i τ hτ htl => ?_⟩
  · rw [hi, Mat.mulVec_mat3]
  · have xrel : ∀ j, Appr (fin (x' j)) (x' j) (XB j * 1.000001 + ε) 0 := fun j => by
      refine Appr.exact ?_
      have h1 : |x j| ≤ XB j * 1.000001 := by
        rw [abs_of_nonneg (hx3 j)]
        refine (hx4 j).trans (max_le ?_ ?_)
        · have := XB_lo j; norm_num at *; linarith
        · have := XB_lo j; have := hu_abs j; norm_num at *; linarith
      have := abs_sub_abs_le_abs_sub (x' j) (x j)
      have := hx' j
      linarith
    have hrel : ApprMat (fun i j => fin (m i j)) m (coef p) (fun _ => 0) := fun i j =>
      ⟨Appr.exact (hmc i j), (coef_le p i j).1, (coef_le p i j).2.trans (by norm_num)⟩
    have padj_bd : ∀ i j, 1e-8 ≤ padj (coef p) i j ∧ padj (coef p) i j ≤ 8 := fun i j => (appr_adj3 hrel (by norm_num) i j).2
    have hq : ∀ j, 1e-8 ≤ padj (coef p) i j / det2 p := fun j => by
      rw [le_div_iff₀ hd2pos]
      have := (padj_bd i j).1
      norm_num at *; linarith
    have lo : ∀ j, 1e-20 ≤ padj (coef p) i j / det2 p * (XB j * 1.000001 + ε) := fun j => by
      have h1 := hq j
      have h2 : (3e-4 : ℝ) ≤ XB j * 1.000001 + ε := by have := XB_lo j; norm_num at *; linarith
      exact le_trans (by norm_num) (mul_le_mul h1 h2 (by norm_num) (le_trans (by norm_num) h1))
    have hsum : padj (coef p) i 0 / det2 p * (XB 0 * 3.936e-6 + 3 * neg p + (ε * 1.00001 + 1e-10)) + padj (coef p) i 1 / det2 p * (XB 1 * 3.936e-6 + 3 * neg p + (ε * 1.00001 + 1e-10)) +
        padj (coef p) i 2 / det2 p * (XB 2 * 3.936e-6 + 3 * neg p + (ε * 1.00001 + 1e-10)) ≤ τ := by
      rw [← div_le_iff₀ hd2pos] at htl
      refine le_trans (le_of_eq ?_) htl
      simp only [hXB]; ring
    set A0 := padj (coef p) i 0 / det2 p with hA0
    set A1 := padj (coef p) i 1 / det2 p with hA1
    set A2 := padj (coef p) i 2 / det2 p with hA2
    have hA0p : 0 ≤ A0 := le_trans (by norm_num) (hq 0)
    have hA1p : 0 ≤ A1 := le_trans (by norm_num) (hq 1)
    have hA2p : 0 ≤ A2 := le_trans (by norm_num) (hq 2)
    have n0 := mul_nonneg hA0p hν; have n1 := mul_nonneg hA1p hν; have n2 := mul_nonneg hA2p hν
    have hx0 := XB_lo 0; have hx1' := XB_lo 1; have hx2' := XB_lo 2
    have p0 := mul_nonneg hA0p (le_trans (by norm_num) hx0 : 0 ≤ XB 0)
    have p1 := mul_nonneg hA1p (le_trans (by norm_num) hx1' : 0 ≤ XB 1)
    have p2 := mul_nonneg hA2p (le_trans (by norm_num) hx2' : 0 ≤ XB 2)
    have q0 := mul_nonneg hA0p ε0; have q1 := mul_nonneg hA1p ε0; have q2 := mul_nonneg hA2p ε0
    have r0 : A0 * ε ≤ A0 * 1e-3 := mul_le_mul_of_nonneg_left ε1 hA0p
    have r1 : A1 * ε ≤ A1 * 1e-3 := mul_le_mul_of_nonneg_left ε1 hA1p
    have r2 : A2 * ε ≤ A2 * 1e-3 := mul_le_mul_of_nonneg_left ε1 hA2p
    have r3 := mul_le_mul_of_nonneg_left hx0 hA0p; have r4 := mul_le_mul_of_nonneg_left hx1' hA1p; have r5 := mul_le_mul_of_nonneg_left hx2' hA2p
    have row := appr_row (hN i 0) (hN i 1) (hN i 2) (xrel 0) (xrel 1) (xrel 2) (by norm_num) (by norm_num) ⟨lo 0, lo 1, lo 2⟩
      (by simp only [← hA0, ← hA1, ← hA2]; norm_num at hsum hτ r0 r1 r2 r3 r4 r5 ⊢; linarith) (by norm_num)
    obtain ⟨y, hy, hyn⟩ := row.near
    refine ⟨y, hy, ?_⟩
    -- the exact inverse
    have hinv : radj m i 0 / rdet m * u 0 + radj m i 1 / rdet m * u 1 + radj m i 2 / rdet m * u 2 = l i := by
      simp only [hu]
      rw [div_mul_eq_mul_div, div_mul_eq_mul_div, div_mul_eq_mul_div, ← add_div, ← add_div, div_eq_iff hr0]
      fin_cases i <;> simp only [radj, rdet, Matrix.cons_val, Fin.zero_eta, Fin.mk_one, Fin.reduceFinMk] <;> ring
    have hstep : ∀ j A, |radj m i j / rdet m| ≤ A → |radj m i j / rdet m * x' j - radj m i j / rdet m * u j| ≤ A * (4.2 * XB j * 1.2e-7 + 3 * neg p + ε) := by
      intro j A hA
      rw [← mul_sub, abs_mul]
      refine mul_le_mul hA ?_ (abs_nonneg _) ((abs_nonneg _).trans hA)
      have := abs_sub_le (x' j) (x j) (u j)
      have := hx2 j
      have := hx' j
      linarith
    have s0 := abs_le.mp (hstep 0 A0 (hN i 0).le)
    have s1 := abs_le.mp (hstep 1 A1 (hN i 1).le)
    have s2 := abs_le.mp (hstep 2 A2 (hN i 2).le)
    rw [abs_le] at hyn ⊢
    norm_num at hyn s0 s1 s2 hsum ⊢
    constructor <;> linarith

end Fine

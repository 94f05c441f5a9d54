import Verif.FineError
import Verif.Props.Adaptations2

/-!
# Chromatic adaptation in an arithmetic that rounds

Error bounds for the products of matrices in `do_adaption`.
-/

open Outcome Fl Prog Matrix

namespace Fl
variable [FloatModel] [FineError]

/-- The scalar product of two approximate vectors, as the matrix products compute it. -/
theorem Appr.dot {p q : Fin 3 → Fl} {a b A B : Fin 3 → ℝ} {k l : ℝ} (hp : ∀ i, Appr (p i) (a i) (A i) k) (hq : ∀ i, Appr (q i) (b i) (B i) l) (hk : k ≤ 400) (hl : l ≤ 400)
    (h0 : ∀ i, 1e-20 ≤ A i * B i) (h1 : ∑ i, A i * B i ≤ 1000) : Appr (0 + p 0 * q 0 + p 1 * q 1 + p 2 * q 2) (∑ i, a i * b i) (∑ i, A i * B i) (k + l + 4.2) := by
  rw [Fin.sum_univ_three] at h1 ⊢
  rw [Fin.sum_univ_three]
  have pos : ∀ i, 0 ≤ A i * B i := fun i => le_trans (by norm_num) (h0 i)
  have p0 := pos 0
  have p1 := pos 1
  have p2 := pos 2
  have hm : ∀ i, Appr (p i * q i) (a i * b i) (A i * B i) (k + l + 1.2) := fun i =>
    (hp i).mul (hq i) (by linarith) (by linarith) (h0 i) (by fin_cases i <;> simp <;> linarith)
  have k0 := (hp 0).k0
  have l0 := (hq 0).k0
  have s0 := (hm 0).zero_add (by linarith) (h0 0) (by linarith)
  have s1 := s0.add (hm 1) (k + l + 2.2) (by linarith) (by linarith) (by linarith) (by linarith [h0 0]) (by linarith)
  have s2 := s1.add (hm 2) (k + l + 3.2) (by linarith) (by linarith) (by linarith) (by linarith [h0 0]) (by linarith)
  exact s2.weaken le_rfl (by linarith)

end Fl

namespace Adapt

/-- The magnitude used for an entry of a matrix; entries 0 count as a millionth. -/
noncomputable def mag (r : ℝ) : ℝ := max |r| 1e-6

theorem mag_ge (r : ℝ) : |r| ≤ mag r := le_max_left _ _
theorem mag_pos (r : ℝ) : 1e-6 ≤ mag r := le_max_right _ _
theorem mag_le (r : ℝ) : mag r ≤ |r| + 1e-6 := max_le (by linarith) (by linarith [abs_nonneg r])

/-- All entries are at most 2. -/
theorem entry_le (m : AdaptMatrix) (i j : Fin 3) : |square m.values i j| ≤ 1.9 ∧ |square m.inverseValues i j| ≤ 1.9 := by
  cases m <;> fin_cases i <;> fin_cases j <;> simp [square, AdaptMatrix.values, AdaptMatrix.inverseValues] <;> norm_num [abs_le]

/-- The sum of the magnitudes of a row. -/
theorem row_le (m : AdaptMatrix) (i : Fin 3) : |square m.values i 0| + |square m.values i 1| + |square m.values i 2| ≤ 2.7 := by
  cases m <;> fin_cases i <;> simp [square, AdaptMatrix.values] <;> norm_num [abs_of_pos]

/-- The magnitudes of the two matrices together. -/
theorem spread_abs (m : AdaptMatrix) (a : Fin 3) :
    |square m.inverseValues a 0| * (|square m.values 0 0| + |square m.values 0 1| + |square m.values 0 2|) + |square m.inverseValues a 1| * (|square m.values 1 0| + |square m.values 1 1| + |square m.values 1 2|) +
      |square m.inverseValues a 2| * (|square m.values 2 0| + |square m.values 2 1| + |square m.values 2 2|) ≤ 4.05 := by
  cases m <;> fin_cases a <;> simp [square, AdaptMatrix.values, AdaptMatrix.inverseValues] <;> norm_num [abs_of_pos]

/-- The magnitudes of the three matrix products together. -/
theorem spread_le (m : AdaptMatrix) {w : Fin 3 → ℝ} {g : ℝ} (hg : 1 ≤ g) (hw : ∀ i, 0 ≤ w i ∧ w i ≤ 1.01 * g) (a : Fin 3) :
    ∑ b, ∑ i, (∑ c, mag (square m.inverseValues a c) * (if c = i then w i else 1e-6)) * mag (square m.values i b) ≤ 4.2 * g := by
  have row : ∀ i, ∑ b, mag (square m.values i b) ≤ |square m.values i 0| + |square m.values i 1| + |square m.values i 2| + 3e-6 := fun i => by
    rw [Fin.sum_univ_three]
    linarith [mag_le (square m.values i 0), mag_le (square m.values i 1), mag_le (square m.values i 2)]
  have row0 : ∀ i, 0 ≤ ∑ b, mag (square m.values i b) := fun i => Finset.sum_nonneg fun b _ => le_trans (by norm_num) (mag_pos _)
  have inv0 : ∀ c, 0 ≤ mag (square m.inverseValues a c) := fun c => le_trans (by norm_num) (mag_pos _)
  have inv1 : ∀ c, mag (square m.inverseValues a c) ≤ |square m.inverseValues a c| + 1e-6 := fun c => mag_le _
  have col : ∀ i, ∑ c, mag (square m.inverseValues a c) * (if c = i then w i else 1e-6) ≤ mag (square m.inverseValues a i) * (1.01 * g) + 4e-6 := fun i => by
    have b : ∀ c, mag (square m.inverseValues a c) ≤ 1.91 := fun c => (inv1 c).trans (by linarith [(entry_le m a c).2])
    have h : mag (square m.inverseValues a i) * w i ≤ mag (square m.inverseValues a i) * (1.01 * g) := mul_le_mul_of_nonneg_left (hw i).2 (inv0 i)
    rw [Fin.sum_univ_three]
    have b0 := b 0
    have b1 := b 1
    have b2 := b 2
    fin_cases i <;> simp at h ⊢ <;> norm_num at * <;> linarith
  have total : ∑ b, ∑ i, (∑ c, mag (square m.inverseValues a c) * (if c = i then w i else 1e-6)) * mag (square m.values i b) ≤
      ∑ i, (mag (square m.inverseValues a i) * (1.01 * g) + 4e-6) * ∑ b, mag (square m.values i b) := by
    rw [Finset.sum_comm]
    refine Finset.sum_le_sum fun i _ => ?_
    rw [← Finset.mul_sum]
    exact mul_le_mul_of_nonneg_right (col i) (row0 i)
  refine total.trans ?_
  have each : ∀ i, (mag (square m.inverseValues a i) * (1.01 * g) + 4e-6) * ∑ b, mag (square m.values i b) ≤
      (|square m.inverseValues a i| * (|square m.values i 0| + |square m.values i 1| + |square m.values i 2|) + 1e-4) * (1.01 * g) := fun i => by
    have r := row i
    have r0 := row0 i
    have rl := row_le m i
    have j0 := abs_nonneg (square m.inverseValues a i)
    have j1 := (entry_le m a i).2
    have jm := inv1 i
    have jm0 := inv0 i
    have q0 : 0 ≤ |square m.values i 0| + |square m.values i 1| + |square m.values i 2| := by positivity
    generalize |square m.values i 0| + |square m.values i 1| + |square m.values i 2| = q at *
    generalize ∑ b, mag (square m.values i b) = R at *
    generalize |square m.inverseValues a i| = J at *
    generalize mag (square m.inverseValues a i) = K at *
    have h1 : K * (1.01 * g) + 4e-6 ≤ (J + 5e-6) * (1.01 * g) := by
      have : K * (1.01 * g) ≤ (J + 1e-6) * (1.01 * g) := by gcongr
      norm_num at *
      linarith
    have h2 : (K * (1.01 * g) + 4e-6) * R ≤ ((J + 5e-6) * (1.01 * g)) * (q + 3e-6) := mul_le_mul h1 r r0 (by positivity)
    refine h2.trans ?_
    have h3 : (J + 5e-6) * (q + 3e-6) ≤ J * q + 1e-4 := by nlinarith
    have : ((J + 5e-6) * (1.01 * g)) * (q + 3e-6) = ((J + 5e-6) * (q + 3e-6)) * (1.01 * g) := by ring
    rw [this]
    gcongr
  refine (Finset.sum_le_sum fun i _ => each i).trans ?_
  rw [Fin.sum_univ_three, ← add_mul, ← add_mul]
  have s := spread_abs m a
  have : (4.05 + 3e-4) * (1.01 * g) ≤ 4.2 * g := by norm_num; linarith
  refine le_trans (mul_le_mul_of_nonneg_right ?_ (by positivity)) this
  norm_num at s ⊢
  linarith

section
variable [FloatModel]

/-- The entries of the stored matrices. -/
noncomputable def P (m : AdaptMatrix) (i j : Fin 3) : Fl := lit (square m.values i j)
noncomputable def J (m : AdaptMatrix) (i j : Fin 3) : Fl := lit (square m.inverseValues i j)

/-- The computations of `do_adaption`, one after the other. -/
noncomputable def resp (m : AdaptMatrix) (s : Fin 3 → Fl) (i : Fin 3) : Fl := 0 + P m i 0 * s 0 + P m i 1 * s 1 + P m i 2 * s 2
noncomputable def gain (m : AdaptMatrix) (s d : Fin 3 → Fl) (c i : Fin 3) : Fl := if c = i then resp m d i / resp m s i else 0
noncomputable def left (m : AdaptMatrix) (s d : Fin 3 → Fl) (a i : Fin 3) : Fl := 0 + J m a 0 * gain m s d 0 i + J m a 1 * gain m s d 1 i + J m a 2 * gain m s d 2 i
noncomputable def both (m : AdaptMatrix) (s d : Fin 3 → Fl) (a b : Fin 3) : Fl := 0 + left m s d a 0 * P m 0 b + left m s d a 1 * P m 1 b + left m s d a 2 * P m 2 b
noncomputable def final (m : AdaptMatrix) (s d x : Fin 3 → Fl) (a : Fin 3) : Fl := 0 + both m s d a 0 * x 0 + both m s d a 1 * x 1 + both m s d a 2 * x 2

theorem simplified_steps (m : AdaptMatrix) (s d x : Fin 3 → Fl) (own : List Fl) :
    simplified m [x 0, x 1, x 2] own ⟨s 0, s 1, s 2⟩ ⟨d 0, d 1, d 2⟩ = ok [final m s d x 0, final m s d x 1, final m s d x 2] := by
  cases m <;> rfl

variable [FineError]

/-- The adapted components are those of the real matrices up to 1/40000. -/
theorem simplified_near (m : AdaptMatrix) (s d x : Fin 3 → ℝ) {g X : ℝ} (hg : 1 ≤ g) (hg1 : g ≤ 100) (hX0 : 1e-2 ≤ X) (hX : g * X ≤ 200) (hs : ∀ j, 0.01 ≤ s j ∧ s j ≤ 3) (hd : ∀ j, 0.01 ≤ d j ∧ d j ≤ 3)
    (hx : ∀ j, |x j| ≤ X) (hc : ∀ i, 0.02 ≤ (square m.values).mulVec s i) (h4 : ∀ i, ∑ j, |square m.values i j| * s j ≤ 4 * (square m.values).mulVec s i)
    (hgain : ∀ i, ∑ j, |square m.values i j| * d j ≤ g * (square m.values).mulVec s i) (a : Fin 3) :
    Near (final m (fun j => fin (s j)) (fun j => fin (d j)) (fun j => fin (x j)) a) ((ideal m s d).mulVec x a) (g * X / 40000) := by
  have hP : ∀ i j, Appr (P m i j) (square m.values i j) (mag (square m.values i j)) 1 := fun i j =>
    Appr.lit (mag_ge _) (le_trans (by norm_num) (mag_pos _)) ((mag_le _).trans (by linarith [(entry_le m i j).1]))
  have hJ : ∀ i j, Appr (J m i j) (square m.inverseValues i j) (mag (square m.inverseValues i j)) 1 := fun i j =>
    Appr.lit (mag_ge _) (le_trans (by norm_num) (mag_pos _)) ((mag_le _).trans (by linarith [(entry_le m i j).2]))
  -- the cone responses of a white point
  have padded : ∀ s : Fin 3 → ℝ, (∀ j, 0.01 ≤ s j ∧ s j ≤ 3) → ∀ i, ∑ j, mag (square m.values i j) * s j ≤ ∑ j, |square m.values i j| * s j + 1e-5 := fun s hs i => by
    have : ∑ j, mag (square m.values i j) * s j ≤ ∑ j, (|square m.values i j| * s j + 3e-6) := Finset.sum_le_sum fun j _ => by
      have h1 := mag_le (square m.values i j)
      have h2 := hs j
      nlinarith
    refine this.trans ?_
    simp only [Fin.sum_univ_three]
    norm_num
    linarith
  have small : ∀ s : Fin 3 → ℝ, (∀ j, 0.01 ≤ s j ∧ s j ≤ 3) → ∀ i, ∑ j, mag (square m.values i j) * s j ≤ 20 := fun s hs i => by
    have : ∑ j, mag (square m.values i j) * s j ≤ ∑ _j : Fin 3, (6 : ℝ) := Finset.sum_le_sum fun j _ => by
      have h1 := mag_le (square m.values i j)
      have h2 := hs j
      have h3 := (entry_le m i j).1
      have h4 := mag_pos (square m.values i j)
      have : mag (square m.values i j) ≤ 2 := by norm_num at *; linarith
      nlinarith
    refine this.trans ?_
    norm_num
  have hR : ∀ s : Fin 3 → ℝ, (∀ j, 0.01 ≤ s j ∧ s j ≤ 3) → ∀ i, Appr (resp m (fun j => fin (s j)) i) ((square m.values).mulVec s i) (∑ j, mag (square m.values i j) * s j) 5.2 := fun s hs i => by
    refine (Appr.dot (p := P m i) (q := fun j => fin (s j)) (hP i) (fun j => Appr.exact (a := s j) (B := s j) (le_of_eq (abs_of_pos (lt_of_lt_of_le (by norm_num) (hs j).1)))) (by norm_num) (by norm_num)
      (fun j => ?_) ((small s hs i).trans (by norm_num))).weaken le_rfl (by norm_num)
    calc (1e-20 : ℝ) ≤ 1e-6 * 0.01 := by norm_num
      _ ≤ _ := mul_le_mul (mag_pos _) (hs j).1 (by norm_num) (le_trans (by norm_num) (mag_pos _))
  -- the gains
  set W : Fin 3 → ℝ := fun i => (∑ j, mag (square m.values i j) * d j) / (square m.values).mulVec s i with hW
  have cpos : ∀ i, 0 < (square m.values).mulVec s i := fun i => lt_of_lt_of_le (by norm_num) (hc i)
  have sumpos : ∀ i, 1e-8 ≤ ∑ j, mag (square m.values i j) * d j := fun i => by
    refine le_trans ?_ (Finset.single_le_sum (f := fun j => mag (square m.values i j) * d j) (fun j _ => mul_nonneg (le_trans (by norm_num) (mag_pos _)) (le_trans (by norm_num) (hd j).1)) (Finset.mem_univ 0))
    calc (1e-8 : ℝ) ≤ 1e-6 * 0.01 := by norm_num
      _ ≤ _ := mul_le_mul (mag_pos _) (hd 0).1 (by norm_num) (le_trans (by norm_num) (mag_pos _))
  have cle : ∀ i, (square m.values).mulVec s i ≤ 20 := fun i => (le_abs_self _).trans ((hR s hs i).le.trans (small s hs i))
  have W0 : ∀ i, 1e-10 ≤ W i := fun i => by
    rw [hW, le_div_iff₀ (cpos i)]
    have := cle i
    have := sumpos i
    norm_num at *
    linarith
  have W1 : ∀ i, W i ≤ 1.01 * g := fun i => by
    rw [hW, div_le_iff₀ (cpos i)]
    have h1 := padded d hd i
    have h2 := hgain i
    have h3 := hc i
    nlinarith
  have hG : ∀ i, Appr (resp m (fun j => fin (d j)) i / resp m (fun j => fin (s j)) i) ((square m.values).mulVec d i / (square m.values).mulVec s i) (W i) 27.4 := fun i => by
    refine ((hR d hd i).div (hR s hs i) ((square m.values).mulVec s i) 4.01 (cpos i) (le_abs_self _) ?_ (by norm_num) (le_trans (by norm_num) (W0 i)) ((W1 i).trans ?_)).weaken le_rfl (by norm_num)
    · have h1 := padded s hs i
      have h2 := h4 i
      have h3 := hc i
      norm_num at *
      linarith
    · linarith
  have hgainA : ∀ c i, Appr (gain m (fun j => fin (s j)) (fun j => fin (d j)) c i) (diagonal (fun i => (square m.values).mulVec d i / (square m.values).mulVec s i) c i) (if c = i then W i else 1e-6) 27.4 := fun c i => by
    unfold gain
    by_cases h : c = i
    · subst h; simpa using hG c
    · rw [if_neg h, if_neg h, diagonal_apply_ne _ h, zero_def]
      exact (Appr.exact (by norm_num)).weaken le_rfl (by norm_num)
  have w0 : ∀ c i, 1e-10 ≤ (if c = i then W i else 1e-6) := fun c i => by
    split
    · exact W0 i
    · norm_num
  have w1 : ∀ c i, (if c = i then W i else 1e-6) ≤ 101 := fun c i => by
    split
    · exact (W1 i).trans (by linarith)
    · norm_num
  have m0 : ∀ r, 0 ≤ mag r := fun r => le_trans (by norm_num) (mag_pos r)
  have spread := spread_le m hg (w := W) (fun i => ⟨le_trans (by norm_num) (W0 i), W1 i⟩) a
  set L : Fin 3 → ℝ := fun i => ∑ c, mag (square m.inverseValues a c) * (if c = i then W i else 1e-6) with hL
  have L0 : ∀ i, 1e-12 ≤ L i := fun i => by
    obtain ⟨c, hc⟩ : ∃ c : Fin 3, c ≠ i := exists_ne i
    refine le_trans ?_ (Finset.single_le_sum (f := fun c => mag (square m.inverseValues a c) * (if c = i then W i else 1e-6)) (fun j _ => mul_nonneg (m0 _) (le_trans (by norm_num) (w0 j i))) (Finset.mem_univ c))
    rw [if_neg hc]
    have := mag_pos (square m.inverseValues a c)
    norm_num at *
    linarith
  have L1 : ∀ i, L i ≤ 1000 := fun i => by
    have : L i ≤ ∑ _c : Fin 3, (200 : ℝ) := Finset.sum_le_sum fun c _ => by
      have h1 := mag_le (square m.inverseValues a c)
      have h3 := (entry_le m a c).2
      have h5 : mag (square m.inverseValues a c) ≤ 1.91 := by norm_num at *; linarith
      calc _ ≤ (1.91 : ℝ) * 101 := mul_le_mul h5 (w1 c i) (le_trans (by norm_num) (w0 c i)) (by norm_num)
        _ ≤ 200 := by norm_num
    refine this.trans ?_
    norm_num
  have hLeft : ∀ i, Appr (left m (fun j => fin (s j)) (fun j => fin (d j)) a i) (∑ c, square m.inverseValues a c * diagonal (fun i => (square m.values).mulVec d i / (square m.values).mulVec s i) c i) (L i) 32.6 :=
    fun i => by
      refine (Appr.dot (p := J m a) (q := fun c => gain m (fun j => fin (s j)) (fun j => fin (d j)) c i) (hJ a) (fun c => hgainA c i) (by norm_num) (by norm_num) (fun c => ?_) (L1 i)).weaken le_rfl (by norm_num)
      calc (1e-20 : ℝ) ≤ 1e-6 * 1e-10 := by norm_num
        _ ≤ _ := mul_le_mul (mag_pos _) (w0 c i) (by norm_num) (m0 _)
  set B : Fin 3 → ℝ := fun b => ∑ i, L i * mag (square m.values i b) with hB
  have lm : ∀ i b, 1e-18 ≤ L i * mag (square m.values i b) := fun i b => by
    calc (1e-18 : ℝ) ≤ 1e-12 * 1e-6 := by norm_num
      _ ≤ _ := mul_le_mul (L0 i) (mag_pos _) (by norm_num) (le_trans (by norm_num) (L0 i))
  have B0 : ∀ b, 1e-18 ≤ B b := fun b =>
    le_trans (lm 0 b) (Finset.single_le_sum (f := fun i => L i * mag (square m.values i b)) (fun i _ => le_trans (by norm_num) (lm i b)) (Finset.mem_univ 0))
  have Bsum : ∑ b, B b ≤ 4.2 * g := spread
  have B1 : ∀ b, B b ≤ 420 := fun b =>
    (Finset.single_le_sum (f := B) (fun i _ => le_trans (by norm_num) (B0 i)) (Finset.mem_univ b)).trans (Bsum.trans (by linarith))
  have hBoth : ∀ b, Appr (both m (fun j => fin (s j)) (fun j => fin (d j)) a b) ((ideal m s d) a b) (B b) 37.8 := fun b => by
    have := (Appr.dot (p := left m (fun j => fin (s j)) (fun j => fin (d j)) a) (q := fun i => P m i b) hLeft (fun i => hP i b) (by norm_num) (by norm_num)
      (fun i => le_trans (by norm_num) (lm i b)) ((B1 b).trans (by norm_num))).weaken le_rfl (by norm_num : (32.6 + 1 + 4.2 : ℝ) ≤ 37.8)
    simp only [ideal, Matrix.mul_apply]
    exact this
  have X0 : 0 ≤ X := le_trans (by norm_num) hX0
  have total : ∑ b, B b * X ≤ 4.2 * g * X := by
    rw [← Finset.sum_mul]
    exact mul_le_mul_of_nonneg_right Bsum X0
  have hF := Appr.dot (p := both m (fun j => fin (s j)) (fun j => fin (d j)) a) (q := fun b => fin (x b)) (B := fun _ => X) hBoth (fun b => Appr.exact (hx b)) (by norm_num) (by norm_num)
    (fun b => by
      calc (1e-20 : ℝ) ≤ 1e-18 * 1e-2 := by norm_num
        _ ≤ _ := mul_le_mul (B0 b) hX0 (by norm_num) (le_trans (by norm_num) (B0 b))) (total.trans (by linarith))
  refine (show Near _ _ _ from hF.near).weaken ?_
  have gX : 0 ≤ g * X := by positivity
  norm_num at total ⊢
  linarith

end
end Adapt
